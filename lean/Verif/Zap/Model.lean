import Verif.Event.Model

/-!
# Zaps (src/zap.c)

Tag values are non-NULL and allocation succeeds.  `tolower` is the ASCII one ("C" locale).
-/

namespace Nostr.Zap
open Nostr Nostr.Event

/-! ## LNURL -/

/-- zap.c:27-31: the position of the last `1`, 0 when there is none; `i` is the index of the next character. -/
def lastOne : Bytes → Nat → Nat → Nat
  | [], _, sep => sep
  | c :: s, i, sep => lastOne s (i + 1) (if c = 0x31 then i else sep)

/-- zap.c:19-43 `decode_bech32` with an `hrp` buffer of `size` bytes: the prefix, `none` for 0. -/
def decodeBech32 (size : Nat) (s : Bytes) : Res (Option Bytes) :=
  if s.length < 8 ∨ s.length > 90 then .ok none
  else
    let sep := lastOne s 0 0
    if sep < 1 ∨ sep + 7 > s.length then .ok none
    else if sep + 1 > size then .ub
    else .ok (some (s.take sep))

/-- zap.c:112-135 `nostr_zap_validate_lnurl`; the two output parameters are never written. -/
def validateLnurl (s : Bytes) : Res Unit :=
  if s.take 5 ≠ c!"lnurl" then .err .invalidParam
  else decodeBech32 32 s >>= fun r =>
    match r with
    | none => .err .encoding
    | some hrp => if hrp ≠ c!"lnurl" then .err .invalidParam else .ok ()

/-! ## Requests -/

/-- zap.c:67-71: at most fifteen relays enter `relay_tag[16]`. -/
def relayTag (relays : List Bytes) : List Bytes := c!"relays" :: relays.take 15

/-- zap.c:45-110 `nostr_zap_create_request`; `amount` is a `uint64_t`, printed completely into
`amount_str[32]`. -/
def createRequest (cfg : Option Config.Config) (now : Int) (amount : Nat) (recipient : Bytes) (lnurl content : Option Bytes)
    (relays : List Bytes) : Res Event :=
  if relays = [] then .err .invalidParam
  else
    let e0 : Event := { zero with createdAt := now, kind := 9734, content := content.filter (· ≠ []) }
    addTag cfg e0 (relayTag relays) >>= fun e1 =>
    addTag cfg e1 [c!"amount", Num.decNat amount] >>= fun e2 =>
    (match lnurl with
      | some u => addTag cfg e2 [c!"lnurl", u]
      | none => .ok e2) >>= fun e3 =>
    Hex.keyToHex recipient 65 >>= fun hex =>
    addTag cfg e3 [c!"p", hex]

/-! ## Receipts -/

/-- C `strstr`: the text from the first occurrence on. -/
def strstr (needle : Bytes) : Bytes → Option Bytes
  | [] => if needle = [] then some [] else none
  | c :: s => if (c :: s).take needle.length = needle then some (c :: s) else strstr needle s

/-- C `tolower`. -/
def lower (c : UInt8) : UInt8 := if 65 ≤ c ∧ c ≤ 90 then c + 32 else c

/-- zap.c:178-199: the amount of an invoice text, `none` when `*amount` is not written; `uint64_t`
arithmetic. -/
def amountOf (bolt11 : Bytes) : Option Nat :=
  match strstr c!"lnbc" bolt11 with
  | none => none
  | some s =>
    let start := s.drop 4
    let r := Num.strtoul start
    if r.2.length < start.length then
      let multiplier := lower (r.2.headD 0)
      some ((if multiplier = 0x6d then r.1 * 100000000
        else if multiplier = 0x75 then r.1 * 100000
        else if multiplier = 0x6e then r.1 * 100
        else if multiplier = 0x70 then r.1 / 10
        else r.1 * 100000000000) % 2 ^ 64)
    else none

/-- What the parsing call has stored (`none`: the output parameter is untouched). -/
structure Receipt where
  bolt11 : Option Bytes
  preimage : Option Bytes
  request : Option Event
  deriving DecidableEq, Repr

/-- zap.c:143-176: the loop over the tags. -/
def scanTags (P : Plat) (b : Build) (cfg : Option Config.Config) : List (List Bytes) → Receipt → Res Receipt
  | [], r => .ok r
  | t :: ts, r =>
    match t with
    | name :: value :: _ =>
      if name = c!"bolt11" then scanTags P b cfg ts { r with bolt11 := some value }
      else if name = c!"preimage" then
        scanTags P b cfg ts (if value.length ≤ 64 then { r with preimage := some value } else r)
      else if name = c!"description" then
        fromJson P b cfg value >>= fun q => scanTags P b cfg ts { r with request := some q }
      else scanTags P b cfg ts r
    | _ => scanTags P b cfg ts r

/-- zap.c:137-203 `nostr_zap_parse_receipt` with all output parameters given and initially zero: the stored
values and the amount (`none`: not written). -/
def parseReceipt (P : Plat) (b : Build) (cfg : Option Config.Config) (e : Event) : Res (Receipt × Option Nat) :=
  if e.kind ≠ 9735 then .err .invalidParam
  else scanTags P b cfg e.tags ⟨none, none, none⟩ >>= fun r => .ok (r, r.bolt11.bind amountOf)

/-- zap.c:245-251: the first amount tag of the request, 0 when there is none (`strtoull`). -/
def requestAmount : List (List Bytes) → Nat
  | [] => 0
  | t :: ts =>
    match t with
    | name :: value :: _ => if name = c!"amount" then (Num.strtoul value).1 else requestAmount ts
    | _ => requestAmount ts

/-- zap.c:205-269 `nostr_zap_verify`. -/
def verifyZap (C : Crypto) (P : Plat) (b : Build) (cfg : Option Config.Config) (receipt request : Event) (server : Bytes) : Res Unit :=
  if receipt.kind ≠ 9735 ∨ request.kind ≠ 9734 then .err .invalidEvent
  else Hex.keyToHex receipt.pubkey 65 >>= fun hex =>
  if server.length ≠ 64 ∨ Hex.ctMemcmp hex server ≠ 0 then .err .invalidSignature
  else parseReceipt P b cfg receipt >>= fun p =>
  match p.1.request with
  | none => .err .invalidEvent
  | some q =>
    if Hex.ctMemcmp request.id q.id ≠ 0 then .err .invalidEvent
    else
      let want := requestAmount request.tags
      let got := p.2.getD 0
      if want > 0 ∧ got > 0 ∧ want ≠ got then .err .invalidEvent
      else verify C b receipt

end Nostr.Zap
