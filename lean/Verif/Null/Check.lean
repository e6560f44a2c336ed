import Verif.Null.Spec

/-! # Checking the tests of a function against its uses

A check that reads the steps of a function once and keeps the list of the arguments known not to be NULL, and of
the groups known to have a member. Its answer holds for every choice of the arguments that are NULL. -/

namespace Nostr.Null

/-- Is the use of each argument preceded by a test, are the tests only of needed arguments, and is each need tested before
the function can end? `k` are the arguments known not to be NULL, `gs` the groups known to have a member. -/
def check (needs : List (List Nat)) : List Nat → List (List Nat) → List Op → Bool
  | k, gs, [] => needs.all fun g => gs.contains g || g.any k.contains
  | k, gs, .refuse ps _ _ :: rest => (ps.all fun p => needs.contains [p]) && check needs (ps ++ k) gs rest
  | k, gs, .refuseAll ps _ :: rest => needs.contains ps && check needs k (ps :: gs) rest
  | k, gs, .finish ps :: rest => (needs.all fun g => gs.contains g || g.any k.contains) && check needs (ps ++ k) gs rest
  | k, gs, .use p :: rest => k.contains p && check needs k gs rest
  | k, gs, .when cs ps :: rest => (ps.all fun p => cs.contains p || k.contains p) && check needs k gs rest

/-- What the lists of `check` stand for. -/
def Knows (n : Nat → Bool) (k : List Nat) (gs : List (List Nat)) : Prop :=
  (∀ p ∈ k, n p = false) ∧ ∀ g ∈ gs, ∃ p ∈ g, n p = false

theorem knows_groups {n : Nat → Bool} {k : List Nat} {gs needs : List (List Nat)} (hk : Knows n k gs)
    (h : (needs.all fun g => gs.contains g || g.any k.contains) = true) : ∀ g ∈ needs, ∃ p ∈ g, n p = false := by
  intro g hg
  have := List.all_eq_true.mp h g hg
  rcases (Bool.or_eq_true _ _).mp this with h1 | h1
  · exact hk.2 g (List.contains_iff_mem.mp h1)
  · obtain ⟨p, hp, h2⟩ := List.any_eq_true.mp h1
    exact ⟨p, hp, hk.1 p (List.contains_iff_mem.mp h2)⟩

theorem not_any {n : Nat → Bool} {ps : List Nat} (h : ¬ ps.any n = true) : ∀ p ∈ ps, n p = false := by
  intro p hp
  cases hn : n p with
  | false => rfl
  | true => exact absurd (List.any_eq_true.mpr ⟨p, hp, hn⟩) h

/-- A checked function uses no argument that is NULL; it refuses if a need is lacking, and only then. -/
theorem check_sound {needs : List (List Nat)} {n : Nat → Bool} : ∀ (ops : List Op) {k : List Nat} {gs : List (List Nat)},
    Knows n k gs → check needs k gs ops = true →
      (run n ops = .done ∧ ∀ g ∈ needs, ∃ p ∈ g, n p = false) ∨
      ∃ a, run n ops = .refused a ∧ ∃ g ∈ needs, ∀ p ∈ g, n p = true
  | [], _, _, hk, h => .inl ⟨rfl, knows_groups hk h⟩
  | .refuse ps ws a :: rest, k, gs, hk, h => by
    obtain ⟨h1, h2⟩ := (Bool.and_eq_true _ _).mp h
    by_cases c : ps.any n = true
    · right
      obtain ⟨p, hp, hn⟩ := List.any_eq_true.mp c
      refine ⟨a, by rw [run, if_pos c], [p], List.contains_iff_mem.mp (List.all_eq_true.mp h1 p hp), ?_⟩
      intro q hq
      rw [List.mem_singleton.mp hq]; exact hn
    · rw [run, if_neg c]
      refine check_sound rest ⟨?_, hk.2⟩ h2
      intro p hp
      rcases List.mem_append.mp hp with hp | hp
      · exact not_any c p hp
      · exact hk.1 p hp
  | .refuseAll ps a :: rest, k, gs, hk, h => by
    obtain ⟨h1, h2⟩ := (Bool.and_eq_true _ _).mp h
    by_cases c : ps.all n = true
    · right
      exact ⟨a, by rw [run, if_pos c], ps, List.contains_iff_mem.mp h1, fun p hp => List.all_eq_true.mp c p hp⟩
    · rw [run, if_neg c]
      refine check_sound rest ⟨hk.1, ?_⟩ h2
      intro g hg
      rcases List.mem_cons.mp hg with hg | hg
      · subst hg
        refine Classical.byContradiction fun hno => c (List.all_eq_true.mpr fun p hp => ?_)
        cases hn : n p with
        | true => rfl
        | false => exact absurd ⟨p, hp, hn⟩ hno
      · exact hk.2 g hg
  | .finish ps :: rest, k, gs, hk, h => by
    obtain ⟨h1, h2⟩ := (Bool.and_eq_true _ _).mp h
    by_cases c : ps.any n = true
    · exact .inl ⟨by rw [run, if_pos c], knows_groups hk h1⟩
    · rw [run, if_neg c]
      refine check_sound rest ⟨?_, hk.2⟩ h2
      intro p hp
      rcases List.mem_append.mp hp with hp | hp
      · exact not_any c p hp
      · exact hk.1 p hp
  | .use p :: rest, k, gs, hk, h => by
    obtain ⟨h1, h2⟩ := (Bool.and_eq_true _ _).mp h
    have hp := hk.1 p (List.contains_iff_mem.mp h1)
    rw [run, hp]
    exact check_sound rest hk h2
  | .when cs ps :: rest, k, gs, hk, h => by
    obtain ⟨h1, h2⟩ := (Bool.and_eq_true _ _).mp h
    have c : ¬ (!cs.any n && ps.any n) = true := by
      intro c
      obtain ⟨c1, c2⟩ := (Bool.and_eq_true _ _).mp c
      obtain ⟨p, hp, hn⟩ := List.any_eq_true.mp c2
      have c1' : ¬ cs.any n = true := by
        intro h'; rw [h'] at c1; cases c1
      rcases (Bool.or_eq_true _ _).mp (List.all_eq_true.mp h1 p hp) with h3 | h3
      · rw [not_any c1' p (List.contains_iff_mem.mp h3)] at hn; cases hn
      · rw [hk.1 p (List.contains_iff_mem.mp h3)] at hn; cases hn
    rw [run, if_neg c]
    exact check_sound rest hk h2

end Nostr.Null
