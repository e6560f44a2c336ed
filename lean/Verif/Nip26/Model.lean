import Verif.Event.Model
import Verif.Hex.Model

/-!
# Delegation (src/nip26.c, build with secp256k1)

Tag values are non-NULL and allocation succeeds.  With noscrypt an invalid delegator key gives INVALID_SIGNATURE
instead of INVALID_KEY.
-/

namespace Nostr.Nip26
open Nostr Nostr.Event

/-- nostr.h:1397-1404 `nostr_delegation_conditions`; a `has_…` flag and its value are one option. -/
structure Cond where
  kinds : List Nat
  after : Option Int
  before : Option Int
  deriving DecidableEq, Repr

/-- nip26.c:93-98: `strtoul` and the tests after it. -/
def kindNum (p : Bytes) : Option (Nat × Bytes) :=
  match Num.scanDec p with
  | none => none
  | some (neg, m, rest) =>
      if m ≥ 2 ^ 64 then none
      else if (if neg then (2 ^ 64 - m) % 2 ^ 64 else m) > 65535 then none
      else some (if neg then (2 ^ 64 - m) % 2 ^ 64 else m, rest)

/-- nip26.c:118-123 and 132-137: `strtoll` and the tests after it. -/
def timeNum (p : Bytes) : Option (Int × Bytes) :=
  match Num.scanDec p with
  | none => none
  | some (neg, m, rest) =>
      if (if neg then -(m : Int) else m) < -2 ^ 63 ∨ (if neg then -(m : Int) else m) > 2 ^ 63 - 1 then none
      else some (if neg then -(m : Int) else m, rest)

/-- nip26.c:90-146: one clause at `p`, giving the updated conditions and the new position. -/
def clause (p : Bytes) (c : Cond) : Option (Cond × Bytes) :=
  if p.take 5 = c!"kind=" then
    match kindNum (p.drop 5) with
    | none => none
    | some (k, rest) => if c.kinds.length ≥ 256 then none else some ({ c with kinds := c.kinds ++ [k] }, rest)
  else if p.take 11 = c!"created_at>" then
    match timeNum (p.drop 11) with
    | none => none
    | some (t, rest) => some ({ c with after := some t }, rest)
  else if p.take 11 = c!"created_at<" then
    match timeNum (p.drop 11) with
    | none => none
    | some (t, rest) => some ({ c with before := some t }, rest)
  else none

/-- nip26.c:78-147: the loop; the first argument is the number of iterations left, the last `parsed`. -/
def loop : Nat → Bytes → Cond → Nat → Option (Cond × Nat)
  | _, [], c, n => some (c, n)
  | 0, _ :: _, _, _ => none
  | fuel + 1, b :: s, c, n =>
      match (b :: s).dropWhile (· == 0x26) with
      | [] => some (c, n)
      | d :: p => match clause (d :: p) c with
          | none => none
          | some (c', rest) => loop fuel rest c' (n + 1)

/-- nip26.c:64-155 `parse_delegation_conditions`. -/
def parseConditions (s : Bytes) : Option Cond :=
  if s = [] then none
  else match loop 100 s ⟨[], none, none⟩ 0 with
    | none => none
    | some (c, n) => if n = 0 then none else some c

/-- nostr.h:1409-1414 `nostr_delegation`. -/
structure Delegation where
  delegator : Bytes
  conditions : Bytes
  token : Bytes
  parsed : Cond
  deriving DecidableEq, Repr

/-- nip26.c:157-182 `build_delegation_hash`; the buffer holds exactly the text and its terminator. -/
def digest (C : Crypto) (delegatee conditions : Bytes) : Res Bytes :=
  if conditions.length > 4096 then .err .invalidParam
  else .ok (C.sha256 ((c!"nostr:delegation:" ++ Hex.hexEncode delegatee ++ c!":" ++ conditions).take (17 + 64 + 1 + conditions.length)))

/-- nip26.c:184-279 `nostr_delegation_create`; `rand` is the result of the random generator. -/
def create (C : Crypto) (rand : Option Bytes) (sk delegatee conditions : Bytes) : Res Delegation :=
  digest C delegatee conditions >>= fun h =>
  match C.pubOf sk with
  | none => .err .invalidKey
  | some pk => match rand with
    | none => .err .memory
    | some r => match C.sign sk h r with
      | none => .err .invalidSignature
      | some s => match parseConditions conditions with
        | none => .err .invalidParam
        | some c => .ok ⟨pk, conditions, s, c⟩

/-- nip26.c:281-317 `nostr_delegation_verify`. -/
def verify (C : Crypto) (d : Delegation) (delegatee : Bytes) : Res Unit :=
  digest C delegatee d.conditions >>= fun h =>
  if !C.validPub d.delegator then .err .invalidKey
  else if !C.verify d.delegator h d.token then .err .invalidSignature
  else .ok ()

/-- nip26.c:319-328 `kind_allowed`. -/
def kindAllowed (c : Cond) (kind : Nat) : Bool :=
  if c.kinds.length = 0 then true else c.kinds.any (· == kind)

/-- nip26.c:330-349 `nostr_delegation_check_conditions`. -/
def check (d : Delegation) (kind : Nat) (createdAt : Int) : Res Unit :=
  if !kindAllowed d.parsed kind then .err .invalidEvent
  else if d.parsed.after.any (fun t => decide (createdAt ≤ t)) then .err .invalidEvent
  else if d.parsed.before.any (fun t => decide (createdAt ≥ t)) then .err .invalidEvent
  else .ok ()

/-- nip26.c:351-371 `nostr_event_add_delegation`. -/
def addDelegation (cfg : Option Config.Config) (e : Event) (d : Delegation) : Res Event :=
  addTag cfg e [c!"delegation", Hex.hexEncode d.delegator, d.conditions, Hex.hexEncode d.token]

/-- nip26.c:42-51 `is_valid_hex`. -/
def isValidHex (s : Bytes) (n : Nat) : Bool := s.length == n && s.all (fun c => (Hex.nibble c).isSome)

/-- nip26.c:386-419: reading the delegation tag. -/
def readTag (delegator conditions token : Bytes) : Res Delegation :=
  if conditions.length = 0 ∨ conditions.length > 4096 then .err .invalidEvent
  else if !isValidHex delegator 64 then .err .invalidEvent
  else if !isValidHex token 128 then .err .invalidEvent
  else match Hex.hexDecode delegator 32 with
    | none => .err .invalidEvent
    | some pk => match Hex.hexDecode token 64 with
      | none => .err .invalidEvent
      | some tk => match parseConditions conditions with
        | none => .err .invalidEvent
        | some c => .ok ⟨pk, conditions, tk, c⟩

/-- nip26.c:381-423: the tag loop. -/
def getLoop : List (List Bytes) → Res Delegation
  | [] => .err .notFound
  | (name :: a :: b :: c :: _) :: rest => if name = c!"delegation" then readTag a b c else getLoop rest
  | _ :: rest => getLoop rest

/-- nip26.c:373-424 `nostr_event_get_delegation`. -/
def getDelegation (e : Event) : Res Delegation := getLoop e.tags

/-- nip26.c:426-445 `nostr_event_verify_delegation`. -/
def verifyDelegation (C : Crypto) (e : Event) : Res Unit :=
  getDelegation e >>= fun d =>
  verify C d e.pubkey >>= fun _ =>
  check d e.kind e.createdAt

end Nostr.Nip26
