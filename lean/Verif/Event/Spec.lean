import Verif.Event.Model

/-! # Vocabulary for event properties -/

namespace Nostr.Event.Spec
open Nostr Nostr.Event

/-- An event as the C structure can hold it: fixed-size fields, `int64_t` time, `uint16_t` kind, strings
without NUL, every tag with at least one value (the API cannot add an empty one). -/
structure WF (e : Event) : Prop where
  id : e.id.length = 32
  pubkey : e.pubkey.length = 32
  sig : e.sig.length = 64
  time : -2 ^ 63 ≤ e.createdAt ∧ e.createdAt ≤ 2 ^ 63 - 1
  kind : e.kind < 65536
  tags : ∀ t ∈ e.tags, t ≠ [] ∧ ∀ v ∈ t, CStr v
  content : CStr e.text

/-- The fields covered by the id. -/
def SameSigned (a b : Event) : Prop :=
  a.pubkey = b.pubkey ∧ a.createdAt = b.createdAt ∧ a.kind = b.kind ∧ a.tags = b.tags ∧ a.text = b.text

/-- Separate texts by commas. -/
def commaSep : List Bytes → Bytes
  | [] => []
  | [t] => t
  | t :: ts => t ++ c!"," ++ commaSep ts

/-- NIP-01 string escaping: exactly seven characters are escaped, everything else is verbatim. -/
def nip01String (s : Bytes) : Bytes :=
  c!"\"" ++ s.flatMap (fun c =>
    if c = 0x0a then c!"\\n" else if c = 0x22 then c!"\\\"" else if c = 0x5c then c!"\\\\"
    else if c = 0x0d then c!"\\r" else if c = 0x09 then c!"\\t" else if c = 0x08 then c!"\\b"
    else if c = 0x0c then c!"\\f" else [c]) ++ c!"\""

/-- The NIP-01 text that is hashed:
`[0,<pubkey>,<created_at>,<kind>,[[<tag values>],…],<content>]` without white space. -/
def nip01 (pubkeyHex time kind : Bytes) (tags : List (List Bytes)) (content : Bytes) : Bytes :=
  c!"[0," ++ (c!"\"" ++ pubkeyHex ++ c!"\"") ++ c!"," ++ time ++ c!"," ++ kind ++ c!"," ++
    (c!"[" ++ commaSep (tags.map fun t => c!"[" ++ commaSep (t.map nip01String) ++ c!"]") ++ c!"]") ++
    c!"," ++ nip01String content ++ c!"]"

/-- A control character other than the seven NIP-01 names. -/
def RareControl (c : UInt8) : Prop :=
  c.toNat < 0x20 ∧ c.toNat ≠ 8 ∧ c.toNat ≠ 9 ∧ c.toNat ≠ 10 ∧ c.toNat ≠ 12 ∧ c.toNat ≠ 13

/-- A tag none of whose values holds anything but control characters (for instance a tag of empty values). -/
def thin (t : List Bytes) : Bool := t.all fun v => v.all fun c => c.toNat < 0x20

/-- The number of such tags. -/
def thinTags (e : Event) : Nat := (e.tags.filter thin).length

end Nostr.Event.Spec
