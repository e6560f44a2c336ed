import Verif.Filter.Model
import Verif.Hex.Spec

/-! # Vocabulary for filter properties -/

namespace Nostr.Filter.Spec
open Nostr Nostr.Event Nostr.Filter Nostr.Json

/-- The event has a tag `name` with value `v`. -/
def HasTag (e : Event) (name v : Bytes) : Prop := ∃ more, (name :: v :: more) ∈ e.tags

/-- NIP-01: the event satisfies every condition present in the filter. -/
structure Satisfies (f : Filter) (e : Event) : Prop where
  ids : f.ids ≠ [] → ∃ p ∈ f.ids, p <+: Hex.Spec.hexText e.id
  authors : f.authors ≠ [] → ∃ p ∈ f.authors, p <+: Hex.Spec.hexText e.pubkey
  kinds : f.kinds ≠ [] → (e.kind : Int) ∈ f.kinds
  since : f.since ≠ 0 → f.since ≤ e.createdAt
  till : f.until_ ≠ 0 → e.createdAt ≤ f.until_
  eTags : f.eTags ≠ [] → ∃ v ∈ f.eTags, HasTag e (c!"e") v
  pTags : f.pTags ≠ [] → ∃ v ∈ f.pTags, HasTag e (c!"p") v
  generic : ∀ g ∈ f.generic, ∃ v ∈ g.2, HasTag e [g.1] v

/-- `g` is `f` with one more condition, or one condition made stricter. -/
inductive Narrower (f : Filter) : Filter → Prop
  | ids (l) (h : f.ids = [] ∨ (l ≠ [] ∧ ∀ p ∈ l, p ∈ f.ids)) : Narrower f { f with ids := l }
  | authors (l) (h : f.authors = [] ∨ (l ≠ [] ∧ ∀ p ∈ l, p ∈ f.authors)) : Narrower f { f with authors := l }
  | kinds (l) (h : f.kinds = [] ∨ (l ≠ [] ∧ ∀ p ∈ l, p ∈ f.kinds)) : Narrower f { f with kinds := l }
  | eTags (l) (h : f.eTags = [] ∨ (l ≠ [] ∧ ∀ p ∈ l, p ∈ f.eTags)) : Narrower f { f with eTags := l }
  | pTags (l) (h : f.pTags = [] ∨ (l ≠ [] ∧ ∀ p ∈ l, p ∈ f.pTags)) : Narrower f { f with pTags := l }
  | generic (a b g) (h : f.generic = a ++ b) : Narrower f { f with generic := a ++ g :: b }
  | since (t) (h : f.since ≤ t) : Narrower f { f with since := t }
  | till (t) (h : f.until_ ≤ 0 ∨ (0 < t ∧ t ≤ f.until_)) : Narrower f { f with until_ := t }

/-- A tag letter. -/
def Letter (c : UInt8) : Prop :=
  (0x61 ≤ c.toNat ∧ c.toNat ≤ 0x7a) ∨ (0x41 ≤ c.toNat ∧ c.toNat ≤ 0x5a)

/-- NIP-01 meaning of one member `key: v` of a filter document (other keys do not restrict). -/
structure CondHolds (e : Event) (key : Bytes) (v : Json) : Prop where
  ids : key = c!"ids" → ∃ l s, v = .arr l ∧ .str s ∈ l ∧ s <+: Hex.Spec.hexText e.id
  authors : key = c!"authors" → ∃ l s, v = .arr l ∧ .str s ∈ l ∧ s <+: Hex.Spec.hexText e.pubkey
  kinds : key = c!"kinds" → ∃ l, v = .arr l ∧ .num (Num.decNat e.kind) ∈ l
  since : key = c!"since" → ∃ n : Int, v = .num (Num.decInt n) ∧ n ≤ e.createdAt
  till : key = c!"until" → ∃ n : Int, v = .num (Num.decInt n) ∧ e.createdAt ≤ n
  tag : ∀ c, Letter c → key = [0x23, c] → ∃ l s, v = .arr l ∧ .str s ∈ l ∧ HasTag e [c] s

/-- The event satisfies every condition written in the document. -/
def DocHolds (doc : Json) (e : Event) : Prop :=
  ∃ m, doc = .obj m ∧ ∀ kv ∈ m, CondHolds e kv.1 kv.2

/-- Case-insensitive equality of keys. -/
def sameKey (a b : Bytes) : Prop := a.map lowerC = b.map lowerC

/-- The documents for which parsing is shown to be faithful: an object without two keys that agree up to
letter case, whose `ids`, `authors`, `#e`, `#p` list at least one string, whose `kinds` lists integers only
(at least one), whose `since` and `until` are positive integers. -/
structure DocOK (m : List (Bytes × Json)) : Prop where
  distinct : m.Pairwise fun a b => ¬ sameKey a.1 b.1
  strings : ∀ k v, (k, v) ∈ m → k = c!"ids" ∨ k = c!"authors" ∨ k = c!"#e" ∨ k = c!"#p" →
    ∃ l s, v = .arr l ∧ .str s ∈ l
  kinds : ∀ v, (c!"kinds", v) ∈ m → ∃ l, v = .arr l ∧ l ≠ [] ∧
    ∀ j ∈ l, ∃ n : Int, j = .num (Num.decInt n) ∧ n.natAbs < 2 ^ 31 - 1
  times : ∀ k v, (k, v) ∈ m → k = c!"since" ∨ k = c!"until" →
    ∃ n : Int, v = .num (Num.decInt n) ∧ 0 < n ∧ n < 10 ^ 15

end Nostr.Filter.Spec
