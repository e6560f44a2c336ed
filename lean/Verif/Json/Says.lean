import Verif.Json.Model

/-! # Specification: what an object says -/

namespace Nostr.Json

/-- Specification: in the object with members `m` the name `k` stands for `v`: such a member exists, and no other
member has that name, upper and lower case not distinguished. -/
def Says (m : List (Bytes × Json)) (k : Bytes) (v : Json) : Prop :=
  (k, v) ∈ m ∧ ∀ q ∈ m, q.1.map lowerC = k.map lowerC → q.2 = v

instance (m : List (Bytes × Json)) (k : Bytes) (v : Json) [DecidableEq Json] : Decidable (Says m k v) := by
  unfold Says; infer_instance

theorem get_says {m : List (Bytes × Json)} {k : Bytes} {v : Json} (h : Says m k v) : get (.obj m) k = some v := by
  simp only [Json.get]
  cases hf : m.find? fun p => p.1.map lowerC == k.map lowerC with
  | none =>
    have := List.find?_eq_none.1 hf _ h.1
    simp at this
  | some q =>
    have h1 := List.mem_of_find?_eq_some hf
    have h2 := List.find?_some hf
    simp only [beq_iff_eq] at h2
    simp [h.2 q h1 h2]

end Nostr.Json
