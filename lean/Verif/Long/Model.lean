import Verif.Zap.Model
import Verif.Config.Model
import Verif.Hd.Model
import Verif.Nip26.Model
import Verif.Nip18.Model
import Verif.Nip25.Model
import Verif.Nip47.Model

/-!
# The calls that go through `long`, for every width of `long`

The other models take `long` to have 64 bits.  The build also supports Windows (CMakeLists.txt:68-70) and the ESP32
(CMakeLists.txt:3-60; of the files below it compiles only config.c), where `long` has 32 bits.  The definitions here take the number `w` of bits
of `long` as their first argument and follow the same lines of the code; `Long/Props.lean` shows that for `w = 64` they are
the definitions of the other models.
-/

namespace Nostr.Long
open Nostr Nostr.Event

/-- C11 7.22.1.4 `strtoul` to base 10: value and the text at `endptr`. -/
def strtoul (w : Nat) (s : Bytes) : Nat × Bytes :=
  match Num.scanDec s with
  | none => (0, s)
  | some (neg, m, rest) =>
      if m ≥ 2 ^ w then (2 ^ w - 1, rest)
      else (if neg then (2 ^ w - m) % 2 ^ w else m, rest)

/-- C11 7.22.1.4 `strtol` to base 10: value and the text at `endptr`. -/
def strtol (w : Nat) (s : Bytes) : Int × Bytes :=
  match Num.scanDec s with
  | none => (0, s)
  | some (neg, m, rest) =>
      let v : Int := if neg then -(m : Int) else m
      (if v < -2 ^ (w - 1) then -2 ^ (w - 1) else if v > 2 ^ (w - 1) - 1 then 2 ^ (w - 1) - 1 else v, rest)

/-! ## Zaps -/

/-- zap.c:45-110 `nostr_zap_create_request`; zap.c:79 prints `(unsigned long)amount`. -/
def createRequest (w : Nat) (cfg : Option Config.Config) (now : Int) (amount : Nat) (recipient : Bytes) (lnurl content : Option Bytes)
    (relays : List Bytes) : Res Event :=
  if relays = [] then .err .invalidParam
  else
    let e0 : Event := { zero with createdAt := now, kind := 9734, content := content.filter (· ≠ []) }
    addTag cfg e0 (Zap.relayTag relays) >>= fun e1 =>
    addTag cfg e1 [c!"amount", Num.decNat (amount % 2 ^ w)] >>= fun e2 =>
    (match lnurl with
      | some u => addTag cfg e2 [c!"lnurl", u]
      | none => .ok e2) >>= fun e3 =>
    Hex.keyToHex recipient 65 >>= fun hex =>
    addTag cfg e3 [c!"p", hex]

/-- zap.c:182-197: the switch.  The first three products are of type `unsigned long`.  The constant of the last has the
type `long` if it fits, and then the product is unsigned; otherwise it has the type `long long`, and so has the product, whose
overflow is undefined. -/
def scaled (w amt : Nat) (multiplier : UInt8) : Res Nat :=
  if multiplier = 0x6d then .ok (amt * 100000000 % 2 ^ w)
  else if multiplier = 0x75 then .ok (amt * 100000 % 2 ^ w)
  else if multiplier = 0x6e then .ok (amt * 100 % 2 ^ w)
  else if multiplier = 0x70 then .ok (amt / 10)
  else if 100000000000 < 2 ^ (w - 1) then .ok (amt * 100000000000 % 2 ^ w)
  else if amt * 100000000000 ≥ 2 ^ 63 then .ub
  else .ok (amt * 100000000000)

/-- zap.c:178-199: the amount of an invoice text, `none` when `*amount` is not written. -/
def amountOf (w : Nat) (bolt11 : Bytes) : Res (Option Nat) :=
  match Zap.strstr c!"lnbc" bolt11 with
  | none => .ok none
  | some s =>
    let start := s.drop 4
    let r := strtoul w start
    if r.2.length < start.length then scaled w r.1 (Zap.lower (r.2.headD 0)) >>= fun a => .ok (some a)
    else .ok none

/-- zap.c:178-199 for a receipt with or without an invoice. -/
def receiptAmount (w : Nat) (r : Zap.Receipt) : Res (Option Nat) :=
  match r.bolt11 with
  | none => .ok none
  | some t => amountOf w t

/-- zap.c:137-203 `nostr_zap_parse_receipt`; `strtoull` and the tags do not depend on `long`. -/
def parseReceipt (w : Nat) (P : Plat) (b : Build) (cfg : Option Config.Config) (e : Event) : Res (Zap.Receipt × Option Nat) :=
  if e.kind ≠ 9735 then .err .invalidParam
  else Zap.scanTags P b cfg e.tags ⟨none, none, none⟩ >>= fun r => receiptAmount w r >>= fun a => .ok (r, a)

/-- zap.c:230-268: the tests of `nostr_zap_verify` on the receipt that was read. -/
def verifyRead (C : Crypto) (b : Build) (receipt request : Event) (p : Zap.Receipt × Option Nat) : Res Unit :=
  match p.1.request with
  | none => .err .invalidEvent
  | some q =>
    if Hex.ctMemcmp request.id q.id ≠ 0 then .err .invalidEvent
    else if Zap.requestAmount request.tags > 0 ∧ p.2.getD 0 > 0 ∧ Zap.requestAmount request.tags ≠ p.2.getD 0 then .err .invalidEvent
    else verify C b receipt

/-- zap.c:205-269 `nostr_zap_verify`. -/
def verifyZap (w : Nat) (C : Crypto) (P : Plat) (b : Build) (cfg : Option Config.Config) (receipt request : Event) (server : Bytes) :
    Res Unit :=
  if receipt.kind ≠ 9735 ∨ request.kind ≠ 9734 then .err .invalidEvent
  else Hex.keyToHex receipt.pubkey 65 >>= fun hex =>
  if server.length ≠ 64 ∨ Hex.ctMemcmp hex server ≠ 0 then .err .invalidSignature
  else parseReceipt w P b cfg receipt >>= fun p => verifyRead C b receipt request p

/-! ## Configuration -/

/-- config.c:76-85 `parse_uint32_env`. -/
def parseU32 (w : Nat) (env : Config.Env) (name : Bytes) (dflt : Nat) : Nat :=
  match env name with
  | none => dflt
  | some t => if (strtoul w t).2 ≠ [] ∨ (strtoul w t).1 > 2 ^ 32 - 1 then dflt else (strtoul w t).1

/-- config.c:87-96 `parse_int_env`. -/
def parseI32 (w : Nat) (env : Config.Env) (name : Bytes) (dflt : Int) : Int :=
  match env name with
  | none => dflt
  | some t =>
      if (strtol w t).2 ≠ [] ∨ (strtol w t).1 > 2 ^ 31 - 1 ∨ (strtol w t).1 < -2 ^ 31 then dflt else (strtol w t).1

/-- config.c:98-116 `nostr_config_load_env`. -/
def loadEnv (w : Nat) (env : Config.Env) (c : Config.Config) : Config.Config :=
  { nip44Min := parseU32 w env (c!"NOSTR_NIP44_MIN_SIZE") c.nip44Min
    nip44Max := parseU32 w env (c!"NOSTR_NIP44_MAX_SIZE") c.nip44Max
    maxSessions := parseU32 w env (c!"NOSTR_MAX_SESSIONS") c.maxSessions
    sessionTimeout := parseU32 w env (c!"NOSTR_SESSION_TIMEOUT") c.sessionTimeout
    maxPermissions := parseU32 w env (c!"NOSTR_MAX_PERMISSIONS") c.maxPermissions
    maxContent := parseU32 w env (c!"NOSTR_MAX_CONTENT_SIZE") c.maxContent
    maxTags := parseU32 w env (c!"NOSTR_MAX_TAGS") c.maxTags
    maxTagValues := parseU32 w env (c!"NOSTR_MAX_TAG_VALUES") c.maxTagValues
    connectTimeout := parseU32 w env (c!"NOSTR_RELAY_CONNECT_TIMEOUT") c.connectTimeout
    responseTimeout := parseU32 w env (c!"NOSTR_RELAY_RESPONSE_TIMEOUT") c.responseTimeout
    encryptionNip := parseI32 w env (c!"NOSTR_ENCRYPTION_DEFAULT") c.encryptionNip
    memoryLock := parseI32 w env (c!"NOSTR_SECURE_MEMORY_LOCK") c.memoryLock
    debugMode := parseI32 w env (c!"NOSTR_DEBUG") c.debugMode }

/-- config.c:210-228: `nostr_init_with_config(NULL)` on a library that is not initialised: the configuration it then uses. -/
def fromEnv (w : Nat) (env : Config.Env) : Res Config.Config :=
  Config.validate (loadEnv w env Config.defaults) >>= fun _ => .ok (loadEnv w env Config.defaults)

/-! ## Derivation paths -/

/-- hd_key.c:236-256: one token of the path; `uint32_t index = strtoul(…)`. -/
def component (w : Nat) (token : Bytes) : Option Nat :=
  let hardened := decide (token.length > 0) && (token.getLast? == some 0x27 || token.getLast? == some 0x68)
  let token := if hardened then token.dropLast else token
  let r := strtoul w token
  let index := r.1 % 2 ^ 32
  if r.2 ≠ [] ∨ index ≥ 0x80000000 then none
  else some (if hardened then index ||| 0x80000000 else index)

/-- hd_key.c:235-271, the loop over the tokens. -/
def pathLoop (w : Nat) (C : Hd.Crypto) : List Bytes → Hd.HdKey → Res Hd.HdKey
  | [], current => .ok current
  | t :: ts, current =>
    match component w t with
    | none => .err .invalidParam
    | some index => Hd.derive C current index >>= fun next => pathLoop w C ts next

/-- hd_key.c:208-279 `nostr_hd_key_derive_path`. -/
def derivePath (w : Nat) (C : Hd.Crypto) (master : Hd.HdKey) (path : Bytes) : Res Hd.HdKey :=
  match path with
  | [0x6d] => .ok master
  | 0x6d :: 0x2f :: rest => pathLoop w C (Text.tokens 0x2f rest) master
  | _ => .err .invalidParam

/-! ## Kinds in texts -/

/-- nip26.c:93-98: `strtoul` and the tests after it; `errno` is set when the number does not fit. -/
def kindNum (w : Nat) (p : Bytes) : Option (Nat × Bytes) :=
  match Num.scanDec p with
  | none => none
  | some (neg, m, rest) =>
      if m ≥ 2 ^ w then none
      else if (if neg then (2 ^ w - m) % 2 ^ w else m) > 65535 then none
      else some (if neg then (2 ^ w - m) % 2 ^ w else m, rest)

/-- nip26.c:90-146: one clause; the times go through `long long`. -/
def clause (w : Nat) (p : Bytes) (c : Nip26.Cond) : Option (Nip26.Cond × Bytes) :=
  if p.take 5 = c!"kind=" then
    match kindNum w (p.drop 5) with
    | none => none
    | some (k, rest) => if c.kinds.length ≥ 256 then none else some ({ c with kinds := c.kinds ++ [k] }, rest)
  else Nip26.clause p c

/-- nip26.c:78-147: the loop. -/
def loop (w : Nat) : Nat → Bytes → Nip26.Cond → Nat → Option (Nip26.Cond × Nat)
  | _, [], c, n => some (c, n)
  | 0, _ :: _, _, _ => none
  | fuel + 1, b :: s, c, n =>
      match (b :: s).dropWhile (· == 0x26) with
      | [] => some (c, n)
      | d :: p => match clause w (d :: p) c with
          | none => none
          | some (c', rest) => loop w fuel rest c' (n + 1)

/-- nip26.c:64-155 `parse_delegation_conditions`, which `nostr_delegation_create` and `nostr_event_get_delegation` call. -/
def parseConditions (w : Nat) (s : Bytes) : Option Nip26.Cond :=
  if s = [] then none
  else match loop w 100 s ⟨[], none, none⟩ 0 with
    | none => none
    | some (c, n) => if n = 0 then none else some c

/-- nip18.c:150-155: the kind in a `k` tag of a repost. -/
def repostKind (w : Nat) (v : Bytes) : Option Nat :=
  match Num.scanDec v with
  | some (neg, m, []) =>
      if m ≥ 2 ^ w then none
      else
        let k := if neg then (2 ^ w - m) % 2 ^ w else m
        if k ≤ 65535 then some k else none
  | _ => none

/-- nip18.c:136-157: one iteration of the tag loop. -/
def repostTag (w : Nat) (f : Nip18.Found) : List Bytes → Nip18.Found
  | name :: value :: rest =>
      if name = c!"k" then { f with kind := (repostKind w value).getD f.kind } else Nip18.scanTag f (name :: value :: rest)
  | _ => f

/-- nip18.c:120-166 `nostr_repost_parse`. -/
def repostParse (w : Nat) (e : Event) (idSize pkSize relaySize : Nat) : Res (Bytes × Bytes × Bytes × Nat) :=
  if e.kind ≠ 6 ∧ e.kind ≠ 16 then .err .invalidEvent
  else
    let f := e.tags.foldl (repostTag w) ⟨none, none, none, if e.kind = 6 then 1 else 0⟩
    if f.id.isSome then .ok (Nip18.copyStr idSize f.id, Nip18.copyStr pkSize f.pubkey, Nip18.copyStr relaySize f.relay, f.kind)
    else .err .notFound

/-- nip25.c:127-134: the kind in a `k` tag of a reaction. -/
def reactionKind (w : Nat) (v : Bytes) : Option Nat :=
  match Num.scanDec v with
  | some (neg, m, []) =>
      if m ≥ 2 ^ w then none else some (min (if neg then (2 ^ w - m) % 2 ^ w else m) 65535)
  | _ => none

/-- nip25.c:115-136: one iteration of the tag loop. -/
def reactionTag (w : Nat) (f : Nip25.Found) : List Bytes → Nip25.Found
  | name :: value :: rest =>
      if name = c!"k" then { f with kind := (reactionKind w value).getD f.kind } else Nip25.scanTag f (name :: value :: rest)
  | _ => f

/-- nip25.c:96-146 `nostr_reaction_parse`. -/
def reactionParse (w : Nat) (e : Event) (contentSize idSize pkSize : Nat) : Res (Bytes × Bytes × Bytes × Nat) :=
  if e.kind ≠ 7 then .err .invalidEvent
  else
    let f := e.tags.foldl (reactionTag w) ⟨none, none, 0⟩
    if f.id.isSome then .ok (Nip18.copyStr contentSize e.content, Nip18.copyStr idSize f.id, Nip18.copyStr pkSize f.pubkey, f.kind)
    else .err .notFound

/-! ## Wallet commands -/

/-- nip47_commands.c:187-197: one record of a keysend payment (with cJSON). -/
def tlvTree (w : Nat) (td : Int → Int) (fr : Int → Bytes) (p : Bytes × Bytes) : Json.Json :=
  .obj [(c!"type", .num (Json.numTok td fr (strtol w p.1).1)), (c!"value", .str p.2)]

/-- nip47_commands.c:178-202: the member with the records, if there are any. -/
def tlvField (w : Nat) (td : Int → Int) (fr : Int → Bytes) (tlv : List Bytes) : List (Bytes × Json.Json) :=
  if tlv = [] then [] else [(c!"tlv_records", .arr ((Nip47.tlvPairs tlv).map (tlvTree w td fr)))]

/-- nip47_commands.c:157-209 `nostr_nip47_create_pay_keysend_params` (with cJSON). -/
def payKeysend (w : Nat) (td : Int → Int) (fr : Int → Bytes) (amount : Nat) (pubkey : Bytes) (preimage : Option Bytes)
    (tlv : List Bytes) : Res Bytes :=
  if amount = 0 then .err .invalidParam
  else .ok (Json.print false 0 (.obj ((c!"amount", .num (Json.numTok td fr amount)) :: (c!"pubkey", .str pubkey) ::
    (Nip47.strField (c!"preimage") preimage ++ tlvField w td fr tlv))))

/-- nip47_commands.c:55-100 `nostr_nip47_create_list_transactions_params` without cJSON, with a `time_t` of `tw` bits: `%ld`
prints a `long`, and to print an argument of another width with it is undefined (C11 7.21.6.1). -/
def listTxPlain (w tw : Nat) (fromT untilT : Option Int) (limit offset : Option Nat) (unpaid : Option Bool) (type : Option Bytes) :
    Res Bytes :=
  if tw ≠ w ∧ (fromT.isSome ∨ untilT.isSome) then .ub else Nip47.listTxPlain fromT untilT limit offset unpaid type

end Nostr.Long
