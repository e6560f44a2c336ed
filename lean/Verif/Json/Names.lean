import Verif.Event.Model

/-! # Property theorem: C116 (names of members) -/

namespace Nostr.Json.Names
open Nostr Nostr.Json

/-- Specification: the same character, or the same letter in the other case. -/
def SameLetter (x y : UInt8) : Prop :=
  x = y ∨ (0x41 ≤ x.toNat ∧ x.toNat ≤ 0x5a ∧ y.toNat = x.toNat + 0x20) ∨ (0x41 ≤ y.toNat ∧ y.toNat ≤ 0x5a ∧ x.toNat = y.toNat + 0x20)

/-- Specification: the same name, but for the case of letters. -/
inductive SameName : Bytes → Bytes → Prop
  | nil : SameName [] []
  | cons {x y : UInt8} {a b : Bytes} : SameLetter x y → SameName a b → SameName (x :: a) (y :: b)

theorem lower_toNat (c : UInt8) : (lowerC c).toNat = if 0x41 ≤ c.toNat ∧ c.toNat ≤ 0x5a then c.toNat + 0x20 else c.toNat := by
  have t : ∀ n < 256, (lowerC (UInt8.ofNat n)).toNat = if 0x41 ≤ n ∧ n ≤ 0x5a then n + 0x20 else n := by decide +kernel
  have := t c.toNat c.toNat_lt
  rwa [UInt8.ofNat_toNat] at this

theorem letter_iff (x y : UInt8) : lowerC x = lowerC y ↔ SameLetter x y := by
  rw [← UInt8.toNat_inj, lower_toNat, lower_toNat]
  unfold SameLetter
  rw [← UInt8.toNat_inj]
  have := x.toNat_lt
  have := y.toNat_lt
  split <;> split <;> omega

theorem name_iff : ∀ (a b : Bytes), a.map lowerC = b.map lowerC ↔ SameName a b
  | [], [] => ⟨fun _ => .nil, fun _ => rfl⟩
  | [], y :: b => ⟨fun h => by simp at h, fun h => by cases h⟩
  | x :: a, [] => ⟨fun h => by simp at h, fun h => by cases h⟩
  | x :: a, y :: b => by
    rw [List.map_cons, List.map_cons, List.cons.injEq, letter_iff, name_iff a b]
    exact ⟨fun h => .cons h.1 h.2, fun h => by cases h with | cons h1 h2 => exact ⟨h1, h2⟩⟩

/-- **C116 (names).** The value found under a name in a parsed object is that of the first member whose name is the same but for the
case of letters; when there is none, nothing is found. -/
theorem C116_member (m : List (Bytes × Json)) (k : Bytes) :
    (∀ v, get (.obj m) k = some v ↔ ∃ pre n post, m = pre ++ (n, v) :: post ∧ SameName n k ∧ ∀ p ∈ pre, ¬ SameName p.1 k) ∧
    (get (.obj m) k = none ↔ ∀ p ∈ m, ¬ SameName p.1 k) := by
  simp only [Json.get, Option.map_eq_some_iff, Option.map_eq_none_iff, List.find?_eq_some_iff_append, List.find?_eq_none, beq_iff_eq, name_iff]
  refine ⟨fun v => ⟨?_, ?_⟩, trivial⟩
  · rintro ⟨⟨n, w⟩, ⟨h1, pre, post, rfl, h2⟩, rfl⟩
    exact ⟨pre, n, post, rfl, h1, fun p hp hs => by have := h2 p hp; simp [(name_iff _ _).2 hs] at this⟩
  · rintro ⟨pre, n, post, rfl, h1, h2⟩
    exact ⟨(n, v), ⟨h1, pre, post, rfl, fun p hp => by have := h2 p hp; simpa [← name_iff] using this⟩, rfl⟩

/-- Two members named alike: the first is found. -/
example : (parse c!"{\"a\":1,\"KinD\":2,\"kind\":3}").bind (get · c!"kind") = some (.num c!"2") := by decide +kernel

end Nostr.Json.Names
