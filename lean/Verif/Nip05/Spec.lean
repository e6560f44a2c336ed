import Verif.Json.Lemmas
import Verif.Text

/-! # Vocabulary for NIP-05: identifiers, URLs, documents -/

namespace Nostr.Nip05.Spec
open Nostr

/-- An ASCII letter or digit. -/
def IsAlnum (c : UInt8) : Prop :=
  (0x61 ≤ c ∧ c ≤ 0x7a) ∨ (0x41 ≤ c ∧ c ≤ 0x5a) ∨ (0x30 ≤ c ∧ c ≤ 0x39)

instance (c : UInt8) : Decidable (IsAlnum c) := by unfold IsAlnum; infer_instance

/-- NIP-05 local parts: 1 to 64 characters `a-z0-9-_.`, either case. -/
def LocalPart (s : Bytes) : Prop :=
  1 ≤ s.length ∧ s.length ≤ 64 ∧ ∀ c ∈ s, IsAlnum c ∨ c = 0x2d ∨ c = 0x5f ∨ c = 0x2e

instance (s : Bytes) : Decidable (LocalPart s) := by unfold LocalPart; infer_instance

/-- Domain names: at least two labels between dots, each a non-empty sequence of letters, digits and hyphens. -/
def Domain (s : Bytes) : Prop :=
  s.length ≤ 256 ∧ 2 ≤ (Text.split 0x2e s).length ∧
    ∀ label ∈ Text.split 0x2e s, label ≠ [] ∧ ∀ c ∈ label, IsAlnum c ∨ c = 0x2d

instance (s : Bytes) : Decidable (Domain s) := by unfold Domain; infer_instance

/-- Upper-case letters made lower-case. -/
def lowerCase (s : Bytes) : Bytes := s.map fun c => if 0x41 ≤ c ∧ c ≤ 0x5a then c + 32 else c

/-- The well-known address of NIP-05. -/
def wellKnown (name domain : Bytes) : Bytes := c!"https://" ++ domain ++ c!"/.well-known/nostr.json?name=" ++ name

/-- The host of an `https` URL (RFC 3986): the authority ends at the first of `/ ? #`, user information before the last
`@` and the port after `:` do not belong to the host. -/
def hostOf (url : Bytes) : Option Bytes :=
  if url.take 8 = c!"https://" then
    let authority := (url.drop 8).takeWhile fun c => c != 0x2f && c != 0x3f && c != 0x23
    let server := (authority.reverse.takeWhile (· != 0x40)).reverse
    some (server.takeWhile (· != 0x3a))
  else none

/-- What follows the first `?`, up to a fragment. -/
def queryOf (url : Bytes) : Bytes := (((url.dropWhile (· != 0x3f)).drop 1).takeWhile (· != 0x23))

/-- 64 hex digits, either case. -/
def IsKey (s : Bytes) : Prop :=
  s.length = 64 ∧ ∀ c ∈ s, (0x30 ≤ c ∧ c ≤ 0x39) ∨ (0x61 ≤ c ∧ c ≤ 0x66) ∨ (0x41 ≤ c ∧ c ≤ 0x46)

instance (s : Bytes) : Decidable (IsKey s) := by unfold IsKey; infer_instance

mutual
/-- All strings of a JSON value: keys and string values at any depth. -/
def texts : Json.Json → List Bytes
  | .str s => [s]
  | .arr l => textsL l
  | .obj m => textsM m
  | _ => []
def textsL : List Json.Json → List Bytes
  | [] => []
  | j :: l => texts j ++ textsL l
def textsM : List (Bytes × Json.Json) → List Bytes
  | [] => []
  | (k, j) :: m => k :: texts j ++ textsM m
end

/-- The first member of an object with this key (exact comparison). -/
def member (key : Bytes) : Json.Json → Option Json.Json
  | .obj m => m.lookup key
  | _ => none

/-- The key a NIP-05 document gives for a name. -/
def keyFor (doc : Json.Json) (name : Bytes) : Option Json.Json := (member (c!"names") doc).bind (member name)

/-- A string-to-string object. -/
def table (ns : List (Bytes × Bytes)) : Json.Json := .obj (ns.map fun p => (p.1, .str p.2))

/-- A list of strings. -/
def list (rs : List Bytes) : Json.Json := .arr (rs.map .str)

end Nostr.Nip05.Spec
