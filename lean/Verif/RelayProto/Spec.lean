import Verif.RelayProto.Model
import Verif.Hex.Spec

/-! # Vocabulary for relay-side event properties -/

namespace Nostr.RelayProto.Spec
open Nostr Nostr.Event Nostr.RelayProto

/-- NIP-01: the kind ranges of the four classes. Kinds NIP-01 leaves open count as regular. -/
def InClass : KindType → Int → Prop
  | .replaceable, k => k = 0 ∨ k = 3 ∨ (10000 ≤ k ∧ k ≤ 19999)
  | .ephemeral, k => 20000 ≤ k ∧ k ≤ 29999
  | .addressable, k => 30000 ≤ k ∧ k ≤ 39999
  | .regular, k => k ≠ 0 ∧ k ≠ 3 ∧ (k < 10000 ∨ 40000 ≤ k)

/-- A relay's slot for one replaceable event: a new arrival replaces the stored version iff the
library's comparison says it is the greater one. -/
def arrive (slot : Option Event) (e : Event) : Option Event :=
  match slot with
  | none => some e
  | some cur => if compareReplaceable e cur > 0 then some e else some cur

/-- The slot after a history of arrivals. -/
def slotAfter (history : List Event) : Option Event := history.foldl arrive none

/-- NIP-01: `a` supersedes `b`: newer, or equally new with the lower id. -/
def Supersedes (a b : Event) : Prop :=
  a.createdAt > b.createdAt ∨ (a.createdAt = b.createdAt ∧ a.id < b.id)

/-- The first tag named `name` that has a value carries the value `v`. -/
def FirstTag (tags : List (List Bytes)) (name v : Bytes) : Prop :=
  ∃ pre more post, tags = pre ++ (name :: v :: more) :: post ∧ ∀ t ∈ pre, ∀ w r, t ≠ name :: w :: r

/-- A text of decimal digits. -/
def Decimal (s : Bytes) : Prop := s ≠ [] ∧ ∀ c ∈ s, 0x30 ≤ c.toNat ∧ c.toNat ≤ 0x39

/-- `d` names `t` by its id. -/
def RefersById (d t : Event) : Prop := ∃ more, (c!"e" :: Hex.Spec.hexText t.id :: more) ∈ d.tags

/-- The NIP-01 address `kind:pubkey:d` of an event whose `d` value is `dv`. -/
def address (t : Event) (dv : Bytes) : Bytes :=
  Num.decNat t.kind ++ c!":" ++ Hex.Spec.hexText t.pubkey ++ c!":" ++ dv

/-- `dv` is the `d` value of the event (empty if there is none). -/
def DValue (t : Event) (dv : Bytes) : Prop :=
  FirstTag t.tags (c!"d") dv ∨ (dv = [] ∧ ∀ w r, (c!"d" :: w :: r) ∉ t.tags)

/-- `d` names `t` by its address. -/
def RefersByAddress (d t : Event) : Prop :=
  ∃ dv more, DValue t dv ∧ (c!"a" :: address t dv :: more) ∈ d.tags

/-- The requirements of full validation, in the order in which they are reported. -/
def NotTooNew (now maxFuture : Int) (e : Event) : Prop := e.createdAt ≤ now + maxFuture

end Nostr.RelayProto.Spec
