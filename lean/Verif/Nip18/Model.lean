import Verif.Event.Model
import Verif.Nip21.Model
import Verif.Nip51.Model
import Verif.Hex.Model

/-!
# Reposts and quotes (src/nip18.c)

Tag values are non-NULL (`nostr_event_add_tag` copies every value). Allocation succeeds.
-/

namespace Nostr.Nip18
open Nostr Nostr.Event

/-- nip18.c:36-106 `nostr_repost_create`; `is_valid_hex_string(…, 64)` (lines 16-28) is `Nip51.hex64`;
`json`/`d` = `none` is NULL, `now` the clock read by `nostr_event_create`. -/
def repostCreate (cfg : Option Config.Config) (now : Int) (id pubkey relay : Bytes) (kind : Nat) (d json : Option Bytes) : Res Event :=
  if Nip51.hex64 id = false ∨ Nip51.hex64 pubkey = false then .err .invalidParam
  else
    let k := if kind = 1 then 6 else 16
    let e0 : Event := { zero with createdAt := now, kind := k, content := some (json.getD []) }
    addTag cfg e0 [c!"e", id, relay] >>= fun e1 =>
    addTag cfg e1 [c!"p", pubkey] >>= fun e2 =>
    (if k = 16 then addTag cfg e2 [c!"k", Num.decNat kind] else .ok e2) >>= fun e3 =>
    match d with
    | none => .ok e3
    | some d => addTag cfg e3 [c!"a", Num.decNat kind ++ c!":" ++ pubkey ++ c!":" ++ d]

/-- The locals `found_…` of nip18.c:131-134. -/
structure Found where
  id : Option Bytes
  relay : Option Bytes
  pubkey : Option Bytes
  kind : Nat
  deriving DecidableEq, Repr

/-- nip18.c:150-155: `strtoul` without range error, consuming the whole value, at most 65535. -/
def kindOf (v : Bytes) : Option Nat :=
  match Num.scanDec v with
  | some (neg, m, []) =>
      if m ≥ 2 ^ 64 then none
      else
        let k := if neg then (2 ^ 64 - m) % 2 ^ 64 else m
        if k ≤ 65535 then some k else none
  | _ => none

/-- nip18.c:136-157: one iteration of the tag loop. -/
def scanTag (f : Found) : List Bytes → Found
  | name :: value :: rest =>
      if name = c!"e" then { f with id := some value, relay := rest.head?.or f.relay }
      else if name = c!"p" then { f with pubkey := some value }
      else if name = c!"k" then { f with kind := (kindOf value).getD f.kind }
      else f
  | _ => f

/-- nip18.c:108-118 `copy_str_safe`: the text in the buffer afterwards (size 0: nothing is written). -/
def copyStr (size : Nat) (src : Option Bytes) : Bytes := (src.getD []).take (size - 1)

/-- nip18.c:120-166 `nostr_repost_parse`: event id, author, relay hint and kind. The outputs that
the C function also writes when it returns NOT_FOUND are left out here (see Outbuf/Model.lean). -/
def repostParse (e : Event) (idSize pkSize relaySize : Nat) : Res (Bytes × Bytes × Bytes × Nat) :=
  if e.kind ≠ 6 ∧ e.kind ≠ 16 then .err .invalidEvent
  else
    let f := e.tags.foldl scanTag ⟨none, none, none, if e.kind = 6 then 1 else 0⟩
    if f.id.isSome then .ok (copyStr idSize f.id, copyStr pkSize f.pubkey, copyStr relaySize f.relay, f.kind)
    else .err .notFound

/-! ## Quotes -/

/-- nip18.c:168-171 `is_bech32_char`. -/
def isBech (c : UInt8) : Bool := (0x61 ≤ c && c ≤ 0x7a) || (0x30 ≤ c && c ≤ 0x39)

/-- nip18.c:178-180. -/
def kindPrefix (s : Bytes) : Bool :=
  (c!"note1").isPrefixOf s || (c!"nevent1").isPrefixOf s || (c!"naddr1").isPrefixOf s

/-- nip18.c:173-190 `find_nostr_uri`: the rest of the text from the URI on (`pos`). `strstr` is the step
to the next byte; after a `nostr:` that does not start a quote, six bytes are skipped. -/
def findUri : Nat → Bytes → Option Bytes
  | 0, _ => none
  | _, [] => none
  | fuel + 1, c :: s =>
      if (c!"nostr:").isPrefixOf (c :: s) then
        if kindPrefix ((c :: s).drop 6) then some (c :: s) else findUri fuel ((c :: s).drop 6)
      else findUri fuel s

/-- nip18.c:181-184: the length of the URI starting at `pos`. -/
def uriLen (s : Bytes) : Nat := 6 + ((s.drop 6).takeWhile isBech).length

/-- nip18.c:215-273: the `q` tag of a parsed URI (`none` for the default case). `addr_str` has 512 bytes. -/
def quoteTag : Nip21.Uri → Option (List Bytes)
  | .note id => some [c!"q", Hex.hexEncode id, [], []]
  | .nevent n => some [c!"q", Hex.hexEncode n.id, n.relays.headD [], (n.author.map Hex.hexEncode).getD []]
  | .naddr a => some [c!"q", (Num.decNat a.kind.toNat ++ c!":" ++ Hex.hexEncode a.pubkey ++ c!":" ++ a.identifier).take 511,
      a.relays.headD [], []]
  | _ => none

/-- nip18.c:192-282, the loop of `nostr_quote_tags_from_content`: the event and the return value. `junk`
is the stack content seen by the decoders in each round, `fuel` bounds the rounds. -/
def quoteLoop (cfg : Option Config.Config) (junk : Nat → Bytes) : Nat → Event → Bytes → Res (Event × Option Err)
  | 0, e, _ => .ok (e, none)
  | fuel + 1, e, pos =>
      match findUri pos.length pos with
      | none => .ok (e, none)
      | some p =>
          match Nip21.uriParse (junk fuel) (p.take (uriLen p)) with
          | .ub => .ub
          | .err _ => quoteLoop cfg junk fuel e (p.drop 1)
          | .ok u =>
              match quoteTag u with
              | none => quoteLoop cfg junk fuel e (p.drop (uriLen p))
              | some t =>
                  match addTag cfg e t with
                  | .ok e1 => quoteLoop cfg junk fuel e1 (p.drop (uriLen p))
                  | .err x => .ok (e, some x)
                  | .ub => .ub

/-- nip18.c:192-284 `nostr_quote_tags_from_content`. -/
def quoteTags (cfg : Option Config.Config) (junk : Nat → Bytes) (e : Event) : Res (Event × Option Err) :=
  quoteLoop cfg junk (e.text.length + 1) e e.text

end Nostr.Nip18
