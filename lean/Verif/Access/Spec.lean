import Verif.Access.Model
import Verif.Filter.Spec

/-! # Vocabulary for the properties of accessors and reports -/

namespace Nostr.Access.Spec
open Nostr Nostr.Event Nostr.Filter Nostr.Filter.Spec

/-- Events as an application gets them: built tag by tag, read from JSON, or with other members changed. -/
inductive Made : Event → Prop
  | created (e : Event) (h : e.tags = []) : Made e
  | tagged {cfg e vs e'} (h : Made e) (ha : addTag cfg e vs = .ok e') : Made e'
  | read {P b cfg s e} (h : fromJson P b cfg s = .ok e) : Made e
  | changed {e e'} (h : Made e) (ht : e'.tags = e.tags) : Made e'

/-- The first tag whose first value is `name`. -/
def First (tags : List (List Bytes)) (name : Bytes) (t : List Bytes) : Prop :=
  ∃ pre post, tags = pre ++ t :: post ∧ t.head? = some name ∧ ∀ u ∈ pre, u.head? ≠ some name

/-- What a relay reads off a filter to plan a query. -/
structure Plan where
  ids : List Bytes
  authors : List Bytes
  kinds : List Int
  since : Int
  till : Int
  tags : UInt8 → List Bytes

/-- The query: the event satisfies every part of the plan that lists something. -/
structure Plan.Selects (p : Plan) (e : Event) : Prop where
  ids : p.ids ≠ [] → ∃ x ∈ p.ids, x <+: Hex.Spec.hexText e.id
  authors : p.authors ≠ [] → ∃ x ∈ p.authors, x <+: Hex.Spec.hexText e.pubkey
  kinds : p.kinds ≠ [] → (e.kind : Int) ∈ p.kinds
  since : p.since > 0 → p.since ≤ e.createdAt
  till : p.till > 0 → e.createdAt ≤ p.till
  tags : ∀ c, p.tags c ≠ [] → ∃ v ∈ p.tags c, HasTag e [c] v

/-- The tag conditions of the filter: one for a letter, each listing something. -/
def Plain (f : Filter) : Prop :=
  (f.generic.map Prod.fst).Nodup ∧ ∀ g ∈ f.generic, g.1 ≠ 0x65 ∧ g.1 ≠ 0x70 ∧ g.2 ≠ []

/-- The sentence for a failure. -/
def sentence (message field : Bytes) : Bytes :=
  if field = [] then c!"invalid: " ++ message else c!"invalid: " ++ message ++ c!" for field '" ++ field ++ c!"'"

/-- A text in an array of `n` bytes, with its end. -/
def Holds (n : Nat) (a text : Bytes) : Prop := a.length = n ∧ 0 ∉ text ∧ ∃ rest, a = text ++ 0 :: rest

end Nostr.Access.Spec
