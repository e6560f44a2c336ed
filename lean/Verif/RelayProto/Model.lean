import Verif.Event.Model

/-!
# Model of the relay-side event functions (src/relay_protocol.c)

The current time `now` is a parameter wherever the code calls `time(NULL)`.  Memory allocation
succeeds.  Tag values are never NULL (events are built by `nostr_event_add_tag`).
-/

namespace Nostr.RelayProto
open Nostr Nostr.Event Nostr.Json

/-- The character test of relay_protocol.c:69, 85, 144: a lower-case hex digit. -/
def lowHex (c : UInt8) : Bool :=
  (decide (0x30 ≤ c) && decide (c ≤ 0x39)) || (decide (0x61 ≤ c) && decide (c ≤ 0x66))

/-- relay_protocol.c:60-74 `nostr_validate_hex64`. -/
def validateHex64 (s : Bytes) : Bool := decide (s.length = 64) && s.all lowHex

/-- relay_protocol.c:76-90 `nostr_validate_hex_prefix`. -/
def validateHexPrefix (s : Bytes) : Bool :=
  !(decide (s.length = 0) || decide (s.length > 64)) && s.all lowHex

/-- relay_protocol.c:92-106 `nostr_validate_subscription_id`. -/
def validateSubId (s : Bytes) : Bool :=
  !(decide (s.length = 0) || decide (s.length > 64)) && s.all fun c => !(decide (c < 32) || decide (c > 126))

/-- The values of `int64_t`. -/
def isInt64 (i : Int) : Prop := -2 ^ 63 ≤ i ∧ i ≤ 2 ^ 63 - 1

instance (i : Int) : Decidable (isInt64 i) := inferInstanceAs (Decidable (_ ∧ _))

/-- relay_protocol.c:108-112 `nostr_validate_timestamp`: the sum is computed in `int64_t`, overflow is
undefined. -/
def validateTimestamp (now timestamp maxFuture : Int) : Res Bool :=
  if isInt64 (now + maxFuture) then .ok (decide (timestamp ≤ now + maxFuture)) else .ub

/-- `strchr(s, c)`: the text before the first `c` and the text behind it. -/
def strchr (c : UInt8) (s : Bytes) : Option (Bytes × Bytes) :=
  if c ∈ s then some (s.takeWhile (· != c), (s.dropWhile (· != c)).tail) else none

/-- relay_protocol.c:114-150 `nostr_validate_address`. -/
def validateAddress (a : Bytes) : Bool :=
  match strchr 0x3a a with
  | none => false
  | some (kind, rest) =>
      if kind = [] then false
      else if !kind.all Num.isDigit then false
      else match strchr 0x3a rest with
        | none => false
        | some (pk, _) => decide (pk.length = 64) && pk.all lowHex

/-- include/nostr_relay_protocol.h `nostr_kind_type_t`. -/
inductive KindType
  | regular | replaceable | ephemeral | addressable
  deriving DecidableEq, Repr

/-- relay_protocol.c:157-169 `nostr_kind_get_type`. -/
def kindType (kind : Int) : KindType :=
  if kind ≥ 20000 ∧ kind < 30000 then .ephemeral
  else if kind ≥ 30000 ∧ kind < 40000 then .addressable
  else if kind = 0 ∨ kind = 3 ∨ (kind ≥ 10000 ∧ kind < 20000) then .replaceable
  else .regular

/-- relay_protocol.c:171-174. -/
def isRegular (kind : Int) : Bool := kindType kind == .regular
/-- relay_protocol.c:176-179. -/
def isReplaceable (kind : Int) : Bool := kindType kind == .replaceable
/-- relay_protocol.c:181-184. -/
def isEphemeral (kind : Int) : Bool := kindType kind == .ephemeral
/-- relay_protocol.c:186-189. -/
def isAddressable (kind : Int) : Bool := kindType kind == .addressable

/-- relay_protocol.c:191-205 `nostr_event_get_tag_value`. -/
def tagValue (tags : List (List Bytes)) (name : Bytes) : Option Bytes :=
  match tags with
  | [] => none
  | (n :: v :: _) :: ts => if n = name then some v else tagValue ts name
  | _ :: ts => tagValue ts name

/-- relay_protocol.c:212-227 `nostr_event_get_tag_values`: at most `max` values. -/
def tagValuesN (name : Bytes) : Nat → List (List Bytes) → List Bytes
  | 0, _ => []
  | _, [] => []
  | m + 1, (n :: v :: _) :: ts => if n = name then v :: tagValuesN name m ts else tagValuesN name (m + 1) ts
  | m + 1, _ :: ts => tagValuesN name (m + 1) ts

/-- relay_protocol.c:229-243 `nostr_event_has_tag`. -/
def hasTag (name : Bytes) : List (List Bytes) → Bool
  | [] => false
  | (n :: _) :: ts => if n = name then true else hasTag name ts
  | [] :: ts => hasTag name ts

/-- relay_protocol.c:258-271 `nostr_event_get_expiration`. -/
def expiration (e : Event) : Int :=
  match tagValue e.tags (c!"expiration") with
  | none => 0
  | some s =>
      if (Num.strtol s).2 ≠ [] ∨ (Num.strtol s).1 < 0 then 0 else (Num.strtol s).1

/-- relay_protocol.c:273-280 `nostr_event_is_expired`. -/
def isExpired (e : Event) (now : Int) : Bool :=
  if expiration e = 0 then false else decide (now > expiration e)

/-- C `memcmp` on two regions of the same length: the sign of the first difference. -/
def memcmp : Bytes → Bytes → Int
  | a :: as, b :: bs => if a < b then -1 else if a > b then 1 else memcmp as bs
  | _, _ => 0

/-- relay_protocol.c:431-442 `nostr_event_compare_replaceable` (and 444-447 for addressable events). -/
def compareReplaceable (a b : Event) : Int :=
  if a.createdAt < b.createdAt then -1
  else if a.createdAt > b.createdAt then 1
  else if memcmp a.id b.id < 0 then 1
  else if memcmp a.id b.id > 0 then -1
  else 0

/-- relay_protocol.c:313-367 `nostr_event_serialize_canonical` (cJSON build; otherwise an error):
outcome, bytes written to the caller's buffer (without NUL) and `*out_len`. The buffer is left alone
when the text does not fit. -/
def serializeCanonical (b : Build) (e : Event) (bufSize : Nat) : Res Bytes × Option Nat :=
  match b with
  | .plain => (.err (.relay .invalidJson), none)
  | .cjson td fr =>
      if bufSize = 0 then (.err (.relay .invalidJson), none)
      else
        let s := print false 0 (idTree td fr e)
        if s.length ≥ bufSize then (.err (.relay .bufferTooSmall), some s.length) else (.ok s, some s.length)

/-- relay_protocol.c:369-394 `nostr_event_serialize`. -/
def serializeEvent (b : Build) (e : Event) (bufSize : Nat) : Res Bytes × Option Nat :=
  match b with
  | .plain => (.err (.relay .invalidJson), none)
  | .cjson _ _ =>
      if bufSize = 0 then (.err (.relay .invalidJson), none)
      else match toJson b e with
        | .ok s =>
            if s.length ≥ bufSize then (.err (.relay .bufferTooSmall), some s.length) else (.ok s, some s.length)
        | .err _ => (.err (.relay .memory), none)
        | .ub => (.ub, none)

/-- relay_protocol.c:289-311 `nostr_event_parse`: error codes of `nostr_event_from_json` translated. -/
def parseEvent (P : Plat) (b : Build) (cfg : Option Config.Config) (s : Bytes) : Res Event :=
  match fromJson P b cfg s with
  | .ok e => .ok e
  | .err .memory => .err (.relay .memory)
  | .err .invalidEvent => .err (.relay .invalidId)
  | .err _ => .err (.relay .invalidJson)
  | .ub => .ub

/-- relay_protocol.c:449-509 `nostr_event_validate_full`: on error the code is paired with the field name
stored in `error_field`. `result->valid` is true exactly for `ok`. -/
def validateFull (C : Crypto) (b : Build) (now maxFuture : Int) (e : Event) : Res Unit × Bytes :=
  match validateTimestamp now e.createdAt maxFuture with
  | .ub => (.ub, [])
  | .err x => (.err x, [])
  | .ok false => (.err (.relay .futureEvent), c!"created_at")
  | .ok true =>
      if isExpired e now then (.err (.relay .expiredEvent), c!"expiration")
      else match computeId C b e with
        | .ub => (.ub, [])
        | .err _ => (.err (.relay .invalidId), c!"id")
        | .ok t =>
            if memcmp e.id t.id ≠ 0 then (.err (.relay .idMismatch), c!"id")
            else match verify C b e with
              | .ub => (.ub, [])
              | .err _ => (.err (.relay .sigMismatch), c!"sig")
              | .ok _ => (.ok (), [])

/-- include/nostr_relay_protocol.h `nostr_deletion_request_t`. -/
structure Deletion where
  pubkey : Bytes
  reason : Option Bytes
  ids : List Bytes
  addresses : List Bytes
  deriving DecidableEq, Repr

/-- relay_protocol.c:588-610: the valid `e` values, in order. -/
def delIds : List (List Bytes) → List Bytes
  | [] => []
  | (n :: v :: _) :: ts =>
      if n = c!"e" then (if validateHex64 v then v :: delIds ts else delIds ts) else delIds ts
  | _ :: ts => delIds ts

/-- relay_protocol.c:588-610: the valid `a` values, in order. -/
def delAddrs : List (List Bytes) → List Bytes
  | [] => []
  | (n :: v :: _) :: ts =>
      if n = c!"e" then delAddrs ts
      else if n = c!"a" then (if validateAddress v then v :: delAddrs ts else delAddrs ts)
      else delAddrs ts
  | _ :: ts => delAddrs ts

/-- relay_protocol.c:534-613 `nostr_deletion_parse`. The arrays are allocated with the number of `e`/`a`
tags (559-586), which is at least the number of stored values. -/
def deletionParse (e : Event) : Res Deletion :=
  if e.kind ≠ 5 then .err (.relay .invalidKind)
  else .ok ⟨Hex.hexEncode e.pubkey,
    (match e.content with | some (c :: cs) => some (c :: cs) | _ => none), delIds e.tags, delAddrs e.tags⟩

/-- relay_protocol.c:615-638 `nostr_deletion_authorized`. -/
def deletionAuthorized (r : Deletion) (t : Event) : Bool :=
  if r.pubkey ≠ Hex.hexEncode t.pubkey then false
  else r.ids.any fun i => decide (i = Hex.hexEncode t.id)

/-- relay_protocol.c:663: the address text of an event before truncation. -/
def addressText (t : Event) : Bytes :=
  Num.decNat t.kind ++ c!":" ++ Hex.hexEncode t.pubkey ++ c!":" ++ (tagValue t.tags (c!"d")).getD []

/-- relay_protocol.c:640-676 `nostr_deletion_authorized_address`. -/
def deletionAuthorizedAddress (r : Deletion) (t : Event) : Bool :=
  if !isAddressable t.kind then false
  else if r.pubkey ≠ Hex.hexEncode t.pubkey then false
  else if (addressText t).length ≥ 256 then false
  else r.addresses.any fun a => decide (a = addressText t)

/-- relay_protocol.c:831-846 `hex_string_to_bytes` (`sscanf("%2x")`). -/
def hexStringToBytes (lax0x : Bool) (s : Bytes) (n : Nat) : Option Bytes :=
  if s.length ≠ n * 2 then none
  else match Hex.keyLoop lax0x n s with
    | .ok b => some b
    | _ => none

/-- The selection test of relay_protocol.c:857-861 and 903-907. -/
def selected (name : Bytes) (t : List Bytes) : Option Bytes :=
  match t with
  | n :: v :: _ => if n = name ∧ validateHex64 v = true then some v else none
  | _ => none

/-- relay_protocol.c:878-888: the conversion loop, `room` entries are left in the array. -/
def binLoop (lax0x : Bool) (name : Bytes) : Nat → List (List Bytes) → List Bytes
  | 0, _ => []
  | _, [] => []
  | room + 1, t :: ts =>
      match (selected name t).bind fun v => hexStringToBytes lax0x v 32 with
      | some b => b :: binLoop lax0x name room ts
      | none => binLoop lax0x name (room + 1) ts

/-- relay_protocol.c:848-892 `nostr_event_get_e_tags_binary` (`name = "e"`) and 894-938
`nostr_event_get_p_tags_binary` (`name = "p"`). -/
def tagsBinary (lax0x : Bool) (name : Bytes) (e : Event) : List Bytes :=
  binLoop lax0x name (e.tags.filter fun t => (selected name t).isSome).length e.tags

/-- include/nostr_relay_protocol.h `nostr_tag_iterator_t`. -/
structure Iter where
  event : Event
  index : Nat

/-- relay_protocol.c:678-684 `nostr_tag_iterator_init`. -/
def Iter.init (e : Event) : Iter := ⟨e, 0⟩

/-- relay_protocol.c:686-703 `nostr_tag_iterator_next`: `none` is the NULL return. -/
def Iter.next (it : Iter) : Option (List Bytes) × Iter :=
  match it.event.tags[it.index]? with
  | none => (none, it)
  | some t => (some t, ⟨it.event, it.index + 1⟩)

/-- relay_protocol.c:733-741 `nostr_tag_is_indexable`. -/
def isIndexable (name : Bytes) : Bool :=
  match name with
  | [c] => (decide (0x61 ≤ c) && decide (c ≤ 0x7a)) || (decide (0x41 ≤ c) && decide (c ≤ 0x5a))
  | _ => false

end Nostr.RelayProto
