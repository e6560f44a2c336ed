import Verif.Own.Tree
import Verif.Own.Basic

/-! # Lemmas about building and printing trees -/

namespace Nostr.Own.Tree
open Nostr Nostr.Heap Nostr.Own Nostr.Json

mutual
/-- `Part v j`: `v` is `j` with some elements and members left out, on any level. -/
inductive Part : Json → Json → Prop
  | refl (j : Json) : Part j j
  | arr {l k : List Json} : PartL l k → Part (.arr l) (.arr k)
  | obj {l k : List (Bytes × Json)} : PartM l k → Part (.obj l) (.obj k)
inductive PartL : List Json → List Json → Prop
  | nil (k : List Json) : PartL [] k
  | skip {j : Json} {l k : List Json} : PartL l k → PartL l (j :: k)
  | keep {v j : Json} {l k : List Json} : Part v j → PartL l k → PartL (v :: l) (j :: k)
inductive PartM : List (Bytes × Json) → List (Bytes × Json) → Prop
  | nil (k : List (Bytes × Json)) : PartM [] k
  | skip {j : Bytes × Json} {l k : List (Bytes × Json)} : PartM l k → PartM l (j :: k)
  | keep {n : Bytes} {v j : Json} {l k : List (Bytes × Json)} : Part v j → PartM l k → PartM ((n, v) :: l) ((n, j) :: k)
end

def Made.blocks : Made → List Nat
  | .item bs _ => bs
  | _ => []

theorem freeAll_ok {h0 : Mem} {b : List Nat} : ∀ (bs : List Nat) {h : Heap}, Owned h0 h.mem (bs ++ b) →
    ∃ h', freeAll bs h = some ((), h') ∧ Owned h0 h'.mem b ∧ ∀ x ∈ b, h'.mem x = h.mem x
  | [], h, o => ⟨h, rfl, o, fun _ _ => rfl⟩
  | a :: bs, h, o => by
    obtain ⟨h1, e1, o1, s1⟩ := freeP (p := some a) (b := bs ++ b) o
    obtain ⟨h2, e2, o2, s2⟩ := freeAll_ok bs o1
    refine ⟨h2, ?_, o2, fun x hx => (s2 x hx).trans (s1 x (by simp [hx]))⟩
    simp only [freeAll, M.bind, e1, Option.bind_some]
    exact e2

/-- The order of blocks does not matter. -/
macro "reorder" : tactic => `(tactic| (rw [List.perm_iff_count]; intro x; simp only [List.count_append, List.count_cons, List.count_nil]; omega))

theorem createText_ok {A : Alloc} (hA : Fresh A) (s : Bytes) {h0 : Mem} {h : Heap} {own : List Nat} (o : Owned h0 h.mem own) :
    ∃ r h', createText A s h = some (r, h') ∧ Owned h0 h'.mem (r.blocks ++ own) ∧ (∀ bs v, r = .item bs v → v = .str s) ∧ r ≠ .abort ∧
      (¬ Refused A h0 → ∃ bs, r = .item bs (.str s)) := by
  rcases allocP hA o (.str []) with ⟨h1, e1, m1, rf⟩ | ⟨n, h1, e1, -, o1, -⟩
  · exact ⟨.null, h1, by simp only [createText, create, M.bind, e1, Option.bind_some]; rfl, by rw [m1]; exact o, by simp, by simp, fun hr => absurd rf hr⟩
  · rcases allocP hA o1 (.str s) with ⟨h2, e2, m2, rf⟩ | ⟨c, h2, e2, -, o2, -⟩
    · obtain ⟨h3, e3, o3, -⟩ := freeP (h := h2) (p := some n) (b := own) (by rw [m2]; exact o1)
      exact ⟨.null, h3, by simp only [createText, create, M.bind, e1, e2, e3, Option.bind_some]; rfl, o3, by simp, by simp, fun hr => absurd rf hr⟩
    · refine ⟨.item [n, c] (.str s), h2, by simp only [createText, create, M.bind, e1, e2, Option.bind_some]; rfl, o2.perm (by simp only [Made.blocks]; reorder),
        by simp, by simp, fun _ => ⟨_, rfl⟩⟩

/-- A leaf of one block. -/
theorem leaf_ok {A : Alloc} (hA : Fresh A) (j : Json) {h0 : Mem} {h : Heap} {own : List Nat} (o : Owned h0 h.mem own) :
    ∃ r h', (M.bind (create A) fun n => M.pure (match n with | none => Made.null | some n => .item [n] j)) h = some (r, h') ∧
      Owned h0 h'.mem (r.blocks ++ own) ∧ (∀ bs v, r = .item bs v → v = j) ∧ r ≠ .abort ∧ (¬ Refused A h0 → ∃ bs, r = .item bs j) := by
  rcases allocP hA o (.str []) with ⟨h1, e1, m1, rf⟩ | ⟨n, h1, e1, -, o1, -⟩
  · exact ⟨.null, h1, by simp only [create, M.bind, e1, Option.bind_some]; rfl, by rw [m1]; exact o, by simp, by simp, fun hr => absurd rf hr⟩
  · exact ⟨.item [n] j, h1, by simp only [create, M.bind, e1, Option.bind_some]; rfl, o1, by simp, by simp, fun _ => ⟨_, rfl⟩⟩

theorem attach_ok {A : Alloc} (hA : Fresh A) (c : Option (List Nat)) (key : Bytes) (j : Json) (bs : List Nat) {h0 : Mem} {h : Heap} {own : List Nat}
    (o : Owned h0 h.mem (bs ++ c.getD [] ++ own)) :
    ∃ r h' lost, attach A c key j bs h = some (r, h') ∧ Owned h0 h'.mem (r.1.getD [] ++ lost ++ own) ∧ r.1.isSome = c.isSome ∧
      (scalar j = true → lost = []) ∧ (¬ Refused A h0 → c.isSome = true → r.2 = true ∧ lost = []) := by
  have drop : ∀ {h : Heap}, Owned h0 h.mem (bs ++ c.getD [] ++ own) → ∃ h' lost, (if scalar j then freeAll bs else M.pure ()) h = some ((), h') ∧
      Owned h0 h'.mem (c.getD [] ++ lost ++ own) ∧ (scalar j = true → lost = []) := by
    intro h o
    cases hs : scalar j with
    | true =>
      obtain ⟨h1, e1, o1, -⟩ := freeAll_ok (b := c.getD [] ++ own) bs (h := h) (by rw [← List.append_assoc]; exact o)
      exact ⟨h1, [], e1, by simpa using o1, fun _ => rfl⟩
    | false => exact ⟨h, bs, rfl, o.perm (by reorder), by simp⟩
  cases c with
  | none =>
    obtain ⟨h1, lost, e1, o1, l1⟩ := drop o
    exact ⟨(none, false), h1, lost, by simp only [attach, M.bind, e1, Option.bind_some]; rfl, o1, rfl, l1, by simp⟩
  | some cs =>
    rcases allocP hA o (.str key) with ⟨h1, e1, m1, rf⟩ | ⟨k, h1, e1, -, o1, -⟩
    · obtain ⟨h2, lost, e2, o2, l2⟩ := drop (h := h1) (by rw [m1]; exact o)
      exact ⟨(some cs, false), h2, lost, by simp only [attach, M.bind, e1, e2, Option.bind_some]; rfl, o2, rfl, l2, fun hr => absurd rf hr⟩
    · exact ⟨(some (cs ++ k :: bs), true), h1, [], by simp only [attach, M.bind, e1, Option.bind_some]; rfl,
        o1.perm (by simp only [Option.getD_some]; reorder), rfl, fun _ => rfl, fun _ _ => ⟨rfl, rfl⟩⟩

/-- Not an array, and not an object that contains arrays or objects. -/
def light : Json → Bool
  | .arr _ => false
  | .obj m => m.all fun p => scalar p.2
  | _ => true

theorem light_of_scalar {j : Json} (h : scalar j = true) : light j = true := by
  cases j with
  | arr l => cases h
  | obj l => cases h
  | _ => rfl

/-- What building an item does. -/
def BuildOk (A : Alloc) (chk : Bytes → Bool) (j : Json) : Prop :=
  ∀ (key : Bytes) {h0 : Mem} {h : Heap} {own : List Nat}, Owned h0 h.mem own →
    ∃ r h' lost, build A chk key j h = some (r, h') ∧ Owned h0 h'.mem (r.blocks ++ lost ++ own) ∧ (∀ bs v, r = .item bs v → Part v j) ∧
      (light j = true → lost = []) ∧ (scalar j = true → r ≠ .abort) ∧ (¬ Refused A h0 → (∃ bs, r = .item bs j) ∧ lost = [])

def ElemsOk (A : Alloc) (chk : Bytes → Bool) (l : List Json) : Prop :=
  ∀ (key : Bytes) (c : Option (List Nat)) {h0 : Mem} {h : Heap} {own : List Nat}, Owned h0 h.mem (c.getD [] ++ own) →
    ∃ r h' lost, elems A chk key c l h = some (r, h') ∧ Owned h0 h'.mem (r.2.1.getD [] ++ lost ++ own) ∧ r.2.1.isSome = c.isSome ∧
      PartL r.2.2 l ∧ ((∀ j ∈ l, light j = true) → c.isSome = true → lost = []) ∧
      (¬ Refused A h0 → c.isSome = true → r.1 = false ∧ r.2.2 = l ∧ lost = [])

def MembersOk (A : Alloc) (chk : Bytes → Bool) (l : List (Bytes × Json)) : Prop :=
  ∀ (c : Option (List Nat)) {h0 : Mem} {h : Heap} {own : List Nat}, Owned h0 h.mem (c.getD [] ++ own) →
    ∃ r h' lost, members A chk c l h = some (r, h') ∧ Owned h0 h'.mem (r.2.1.getD [] ++ lost ++ own) ∧ r.2.1.isSome = c.isSome ∧
      PartM r.2.2 l ∧ ((∀ p ∈ l, scalar p.2 = true) → r.1 = false ∧ lost = []) ∧
      (¬ Refused A h0 → c.isSome = true → r.1 = false ∧ r.2.2 = l ∧ lost = [])

theorem scalar_build {A : Alloc} {chk : Bytes → Bool} {j : Json}
    (h : ∀ (key : Bytes) {h0 : Mem} {h : Heap} {own : List Nat}, Owned h0 h.mem own →
      ∃ r h', build A chk key j h = some (r, h') ∧ Owned h0 h'.mem (r.blocks ++ own) ∧ (∀ bs v, r = .item bs v → v = j) ∧ r ≠ .abort ∧
        (¬ Refused A h0 → ∃ bs, r = .item bs j)) : BuildOk A chk j := by
  intro key h0 hp own o
  obtain ⟨r, h', e, o', p, na, g⟩ := h key o
  refine ⟨r, h', [], e, by simpa using o', fun bs v hr => ?_, fun _ => rfl, fun _ => na, fun hr => ⟨g hr, rfl⟩⟩
  rw [p bs v hr]; exact .refl j

theorem arr_build {A : Alloc} (hA : Fresh A) {chk : Bytes → Bool} {l : List Json} (hl : ElemsOk A chk l) : BuildOk A chk (.arr l) := by
  intro key h0 h own o
  have fin : ∀ (c : Option (List Nat)) {h1 : Heap}, Owned h0 h1.mem (c.getD [] ++ own) → (c = none → Refused A h0) → create A h = some (c.map fun c => c.headD 0, h1) →
      (c.map fun c => [c.headD 0]) = c → (c.isNone && chk key) = false →
      ∃ r h' lost, build A chk key (.arr l) h = some (r, h') ∧ Owned h0 h'.mem (r.blocks ++ lost ++ own) ∧ (∀ bs v, r = .item bs v → Part v (.arr l)) ∧
      (light (.arr l) = true → lost = []) ∧ (scalar (.arr l) = true → r ≠ .abort) ∧ (¬ Refused A h0 → (∃ bs, r = .item bs (.arr l)) ∧ lost = []) := by
    intro c h1 o1 hn e1 hc hk
    obtain ⟨r, h2, lost, e2, o2, s2, p2, -, g2⟩ := hl key c o1
    have eb : build A chk key (.arr l) h = some (if r.1 then .abort else match r.2.1 with | none => .null | some bs => .item bs (.arr r.2.2), h2) := by
      simp only [build, M.bind, e1, Option.bind_some]
      rw [show (Option.map (fun c => c.headD 0) c).isNone = c.isNone by cases c <;> rfl, hk]
      simp only [Bool.false_eq_true, if_false, Option.map_map, Function.comp_def, hc, M.bind, e2, Option.bind_some, M.pure]
      obtain ⟨r1, r2, r3⟩ := r
      cases r2 <;> rfl
    rcases hr1 : r.1 with _ | _
    · cases hr2 : r.2.1 with
      | none =>
        refine ⟨.null, h2, lost, by rw [eb, hr1, hr2]; rfl, by rw [hr2] at o2; exact o2, by simp, by simp [light], by simp [scalar], fun hr => ?_⟩
        have : c = none := by cases c with | none => rfl | some _ => rw [hr2] at s2; simp at s2
        exact absurd (hn this) hr
      | some bs =>
        refine ⟨.item bs (.arr r.2.2), h2, lost, by rw [eb, hr1, hr2]; rfl, by rw [hr2] at o2; exact o2, ?_, by simp [light], by simp [scalar], fun hr => ?_⟩
        · intro bs' v hv
          cases hv
          exact .arr p2
        · obtain ⟨-, g, gl⟩ := g2 hr (by rw [← s2, hr2]; rfl)
          exact ⟨⟨bs, by rw [g]⟩, gl⟩
    · refine ⟨.abort, h2, r.2.1.getD [] ++ lost, by rw [eb, hr1]; rfl, by simpa [Made.blocks] using o2, by simp, by simp [light], by simp [scalar], fun hr => ?_⟩
      have : c.isSome = true := by cases c with | none => exact absurd (hn rfl) hr | some _ => rfl
      have := (g2 hr this).1
      rw [hr1] at this; simp at this
  rcases allocP hA o (.str []) with ⟨h1, e1, m1, rf⟩ | ⟨n, h1, e1, -, o1, -⟩
  · cases hk : chk key with
    | true =>
      exact ⟨.abort, h1, [], by simp only [build, create, M.bind, e1, Option.bind_some, Option.isNone_none, hk]; rfl, by rw [m1]; exact o, by simp,
        by simp [light], by simp [scalar], fun hr => absurd rf hr⟩
    | false => exact fin none (by rw [m1]; exact o) (fun _ => rf) e1 rfl (by simp [hk])
  · exact fin (some [n]) o1 (by simp) e1 rfl rfl

theorem obj_build {A : Alloc} (hA : Fresh A) {chk : Bytes → Bool} {l : List (Bytes × Json)} (hl : MembersOk A chk l) : BuildOk A chk (.obj l) := by
  intro key h0 h own o
  have fin : ∀ (c : Option (List Nat)) {h1 : Heap}, Owned h0 h1.mem (c.getD [] ++ own) → (c = none → Refused A h0) → create A h = some (c.map fun c => c.headD 0, h1) →
      (c.map fun c => [c.headD 0]) = c → (c.isNone && chk key) = false →
      ∃ r h' lost, build A chk key (.obj l) h = some (r, h') ∧ Owned h0 h'.mem (r.blocks ++ lost ++ own) ∧ (∀ bs v, r = .item bs v → Part v (.obj l)) ∧
      (light (.obj l) = true → lost = []) ∧ (scalar (.obj l) = true → r ≠ .abort) ∧ (¬ Refused A h0 → (∃ bs, r = .item bs (.obj l)) ∧ lost = []) := by
    intro c h1 o1 hn e1 hc hk
    obtain ⟨r, h2, lost, e2, o2, s2, p2, f2, g2⟩ := hl c o1
    have fl : light (.obj l) = true → r.1 = false ∧ lost = [] := fun h => f2 (by simpa [light] using h)
    have eb : build A chk key (.obj l) h = some (if r.1 then .abort else match r.2.1 with | none => .null | some bs => .item bs (.obj r.2.2), h2) := by
      simp only [build, M.bind, e1, Option.bind_some]
      rw [show (Option.map (fun c => c.headD 0) c).isNone = c.isNone by cases c <;> rfl, hk]
      simp only [Bool.false_eq_true, if_false, Option.map_map, Function.comp_def, hc, M.bind, e2, Option.bind_some, M.pure]
      obtain ⟨r1, r2, r3⟩ := r
      cases r2 <;> rfl
    rcases hr1 : r.1 with _ | _
    · cases hr2 : r.2.1 with
      | none =>
        refine ⟨.null, h2, lost, by rw [eb, hr1, hr2]; rfl, by rw [hr2] at o2; exact o2, by simp, fun h => (fl h).2, by simp [scalar], fun hr => ?_⟩
        have : c = none := by cases c with | none => rfl | some _ => rw [hr2] at s2; simp at s2
        exact absurd (hn this) hr
      | some bs =>
        refine ⟨.item bs (.obj r.2.2), h2, lost, by rw [eb, hr1, hr2]; rfl, by rw [hr2] at o2; exact o2, ?_, fun h => (fl h).2, by simp [scalar], fun hr => ?_⟩
        · intro bs' v hv
          cases hv
          exact .obj p2
        · obtain ⟨-, g, gl⟩ := g2 hr (by rw [← s2, hr2]; rfl)
          exact ⟨⟨bs, by rw [g]⟩, gl⟩
    · refine ⟨.abort, h2, r.2.1.getD [] ++ lost, by rw [eb, hr1]; rfl, by simpa [Made.blocks] using o2, by simp, fun h => absurd ((fl h).1.symm.trans hr1) (by simp), by simp [scalar], fun hr => ?_⟩
      have : c.isSome = true := by cases c with | none => exact absurd (hn rfl) hr | some _ => rfl
      have := (g2 hr this).1
      rw [hr1] at this; simp at this
  rcases allocP hA o (.str []) with ⟨h1, e1, m1, rf⟩ | ⟨n, h1, e1, -, o1, -⟩
  · cases hk : chk key with
    | true =>
      exact ⟨.abort, h1, [], by simp only [build, create, M.bind, e1, Option.bind_some, Option.isNone_none, hk]; rfl, by rw [m1]; exact o, by simp,
        fun _ => rfl, by simp [scalar], fun hr => absurd rf hr⟩
    | false => exact fin none (by rw [m1]; exact o) (fun _ => rf) e1 rfl (by simp [hk])
  · exact fin (some [n]) o1 (by simp) e1 rfl rfl

theorem elems_cons {A : Alloc} {chk : Bytes → Bool} {j : Json} {l : List Json} (hj : BuildOk A chk j) (hl : ElemsOk A chk l) :
    ElemsOk A chk (j :: l) := by
  intro key c h0 h own o
  obtain ⟨r, h1, lost, e1, o1, p1, s1, -, g1⟩ := hj key o
  cases r with
  | abort =>
    refine ⟨(true, c, []), h1, lost, by simp only [elems, M.bind, e1, Option.bind_some]; rfl, o1.perm (by simp only [Made.blocks]; reorder), rfl, .nil _, ?_, ?_⟩
    · exact fun hs _ => s1 (hs j (by simp))
    · intro hr; obtain ⟨⟨bs, hb⟩, -⟩ := g1 hr; cases hb
  | null =>
    obtain ⟨q, h2, lost2, e2, o2, t2, p2, s2, g2⟩ := hl key c (own := lost ++ own) (o1.perm (by simp only [Made.blocks]; reorder))
    refine ⟨q, h2, lost2 ++ lost, by simp only [elems, M.bind, e1, Option.bind_some]; exact e2, o2.perm (by reorder), t2, .skip p2, ?_, ?_⟩
    · intro hs hc
      rw [s2 (fun x hx => hs x (List.mem_cons_of_mem _ hx)) hc, s1 (hs j (by simp))]; rfl
    · intro hr; obtain ⟨⟨bs, hb⟩, -⟩ := g1 hr; cases hb
  | item bs v =>
    cases c with
    | none =>
      obtain ⟨q, h2, lost2, e2, o2, t2, p2, s2, g2⟩ := hl key none (own := bs ++ lost ++ own) (o1.perm (by simp only [Made.blocks, Option.getD_none]; reorder))
      refine ⟨q, h2, lost2 ++ bs ++ lost, by simp only [elems, M.bind, e1, Option.bind_some]; exact e2, o2.perm (by reorder), t2, .skip p2, by simp, by simp⟩
    | some cs =>
      obtain ⟨q, h2, lost2, e2, o2, t2, p2, s2, g2⟩ := hl key (some (cs ++ bs)) (own := lost ++ own) (o1.perm (by simp only [Made.blocks, Option.getD_some]; reorder))
      refine ⟨(q.1, q.2.1, v :: q.2.2), h2, lost2 ++ lost, by simp only [elems, M.bind, e1, Option.bind_some, e2]; rfl, o2.perm (by reorder), t2,
        .keep (p1 bs v rfl) p2, ?_, ?_⟩
      · intro hs _
        rw [s2 (fun x hx => hs x (List.mem_cons_of_mem _ hx)) rfl, s1 (hs j (by simp))]; rfl
      · intro hr _
        obtain ⟨⟨bs', hb⟩, hl1⟩ := g1 hr
        cases hb
        obtain ⟨a, b, d⟩ := g2 hr rfl
        exact ⟨a, by simp [b], by rw [d, hl1]; rfl⟩

theorem members_cons {A : Alloc} (hA : Fresh A) {chk : Bytes → Bool} {k : Bytes} {j : Json} {l : List (Bytes × Json)} (hj : BuildOk A chk j)
    (hl : MembersOk A chk l) : MembersOk A chk ((k, j) :: l) := by
  intro c h0 h own o
  obtain ⟨r, h1, lost, e1, o1, p1, l1, s1, g1⟩ := hj k o
  cases r with
  | abort =>
    refine ⟨(true, c, []), h1, lost, by simp only [members, M.bind, e1, Option.bind_some]; rfl, o1.perm (by simp only [Made.blocks]; reorder), rfl, .nil _, ?_, ?_⟩
    · intro hs; exact absurd rfl (s1 (hs (k, j) (by simp)))
    · intro hr; obtain ⟨⟨bs, hb⟩, -⟩ := g1 hr; cases hb
  | null =>
    obtain ⟨q, h2, lost2, e2, o2, t2, p2, s2, g2⟩ := hl c (own := lost ++ own) (o1.perm (by simp only [Made.blocks]; reorder))
    refine ⟨q, h2, lost2 ++ lost, by simp only [members, M.bind, e1, Option.bind_some]; exact e2, o2.perm (by reorder), t2, .skip p2, ?_, ?_⟩
    · intro hs
      have a := s2 (fun x hx => hs x (List.mem_cons_of_mem _ hx))
      exact ⟨a.1, by rw [a.2, l1 (light_of_scalar (hs (k, j) (by simp)))]; rfl⟩
    · intro hr; obtain ⟨⟨bs, hb⟩, -⟩ := g1 hr; cases hb
  | item bs v =>
    obtain ⟨q, h2, lost2, e2, o2, t2, s2, g2⟩ := attach_ok hA c k j bs (own := lost ++ own) (o1.perm (by simp only [Made.blocks]; reorder))
    obtain ⟨w, h3, lost3, e3, o3, t3, p3, s3, g3⟩ := hl q.1 (own := lost2 ++ lost ++ own) (o2.perm (by reorder))
    refine ⟨(w.1, w.2.1, if q.2 then (k, v) :: w.2.2 else w.2.2), h3, lost3 ++ lost2 ++ lost, by
      simp only [members, M.bind, e1, Option.bind_some, e2, e3]; rfl, o3.perm (by reorder), t3.trans t2, ?_, ?_, ?_⟩
    · cases q.2 with
      | true => exact .keep (p1 bs v rfl) p3
      | false => exact .skip p3
    · intro hs
      have a := s3 (fun x hx => hs x (List.mem_cons_of_mem _ hx))
      have hj := hs (k, j) (by simp)
      exact ⟨a.1, by rw [a.2, l1 (light_of_scalar hj), s2 hj]; rfl⟩
    · intro hr hc
      obtain ⟨⟨bs', hb⟩, hl1⟩ := g1 hr
      cases hb
      obtain ⟨a2, b2⟩ := g2 hr hc
      obtain ⟨a, b, d⟩ := g3 hr (t2.trans hc)
      exact ⟨a, by simp [a2, b], by rw [d, b2, hl1]; rfl⟩

mutual
theorem build_ok {A : Alloc} (hA : Fresh A) (chk : Bytes → Bool) : ∀ j, BuildOk A chk j
  | .str s => scalar_build fun key => by intro h0 h own o; simp only [build]; exact createText_ok hA s o
  | .null => scalar_build fun key => by intro h0 h own o; simp only [build]; exact leaf_ok hA .null o
  | .tru => scalar_build fun key => by intro h0 h own o; simp only [build]; exact leaf_ok hA .tru o
  | .fls => scalar_build fun key => by intro h0 h own o; simp only [build]; exact leaf_ok hA .fls o
  | .num t => scalar_build fun key => by intro h0 h own o; simp only [build]; exact leaf_ok hA (.num t) o
  | .arr l => arr_build hA (elems_ok hA chk l)
  | .obj m => obj_build hA (members_ok hA chk m)
theorem elems_ok {A : Alloc} (hA : Fresh A) (chk : Bytes → Bool) : ∀ l, ElemsOk A chk l
  | [] => fun key c h0 h own o => ⟨(false, c, []), h, [], by simp only [elems]; rfl, by simpa using o, rfl, .nil _, fun _ _ => rfl, fun _ _ => ⟨rfl, rfl, rfl⟩⟩
  | j :: l => elems_cons (build_ok hA chk j) (elems_ok hA chk l)
theorem members_ok {A : Alloc} (hA : Fresh A) (chk : Bytes → Bool) : ∀ l, MembersOk A chk l
  | [] => fun c h0 h own o => ⟨(false, c, []), h, [], by simp only [members]; rfl, by simpa using o, rfl, .nil _, fun _ => ⟨rfl, rfl⟩, fun _ _ => ⟨rfl, rfl, rfl⟩⟩
  | (k, j) :: l => members_cons hA (build_ok hA chk j) (members_ok hA chk l)
end

/-! ## Printing -/

theorem grow_ok {A : Alloc} (hA : Fresh A) : ∀ (n b : Nat) {h0 : Mem} {h : Heap} {own : List Nat}, Owned h0 h.mem (b :: own) →
    ∃ r h', grow A n b h = some (r, h') ∧ Owned h0 h'.mem (r.toList ++ own) ∧ (∀ x ∈ own, h'.mem x = h.mem x) ∧ (r = none → Refused A h0)
  | 0, b, h0, h, own, o => ⟨some b, h, rfl, o, fun _ _ => rfl, by simp⟩
  | n + 1, b, h0, h, own, o => by
    rcases allocP hA o (.str []) with ⟨h1, e1, m1, rf⟩ | ⟨c, h1, e1, v1, o1, s1⟩
    · obtain ⟨h2, e2, o2, s2⟩ := freeP (h := h1) (p := some b) (b := own) (by rw [m1]; exact o)
      exact ⟨none, h2, by simp only [grow, M.bind, e1, e2, Option.bind_some]; rfl, o2, fun x hx => by rw [s2 x hx, m1], fun _ => rf⟩
    · obtain ⟨h2, e2, o2, s2⟩ := freeP (h := h1) (p := some b) (b := c :: own) (o1.perm (by simp only [Option.toList]; reorder))
      obtain ⟨r, h3, e3, o3, s3, g3⟩ := grow_ok hA n c o2
      refine ⟨r, h3, by simp only [grow, M.bind, e1, e2, Option.bind_some]; exact e3, o3, fun x hx => ?_, g3⟩
      rw [s3 x hx, s2 x (by simp [hx]), s1 x (by simp [hx])]

theorem print_ok {A : Alloc} (hA : Fresh A) (g : Bytes → Nat) (fmt : Bool) (v : Option Json) {h0 : Mem} {h : Heap} {own : List Nat} (o : Owned h0 h.mem own) :
    ∃ t h', print A g fmt v h = some (t, h') ∧ Owned h0 h'.mem (t.toList ++ own) ∧ (∀ x ∈ own, h'.mem x = h.mem x) ∧
      (∀ a, t = some a → ∃ w, v = some w ∧ h'.mem a = some (.str (Json.print fmt 0 w))) ∧ (v.isSome = true → t = none → Refused A h0) := by
  rcases allocP hA o (.str []) with ⟨h1, e1, m1, rf⟩ | ⟨b, h1, e1, -, o1, s1⟩
  · exact ⟨none, h1, by simp only [print, M.bind, e1, Option.bind_some]; rfl, by rw [m1]; exact o, fun x hx => by rw [m1], by simp, fun _ _ => rf⟩
  · cases v with
    | none =>
      obtain ⟨h2, e2, o2, s2⟩ := freeP (p := some b) (b := own) o1
      exact ⟨none, h2, by simp only [print, M.bind, e1, e2, Option.bind_some]; rfl, o2, fun x hx => by rw [s2 x hx, s1 x hx], by simp, by simp⟩
    | some w =>
      obtain ⟨r, h2, e2, o2, s2, g2⟩ := grow_ok hA (g (Json.print fmt 0 w)) b o1
      cases r with
      | none => exact ⟨none, h2, by simp only [print, M.bind, e1, e2, Option.bind_some]; rfl, o2, fun x hx => by rw [s2 x hx, s1 x hx], by simp, fun _ _ => g2 rfl⟩
      | some b2 =>
        rcases allocP hA o2 (.str (Json.print fmt 0 w)) with ⟨h3, e3, m3, rf⟩ | ⟨c, h3, e3, v3, o3, s3⟩
        · obtain ⟨h4, e4, o4, s4⟩ := freeP (h := h3) (p := some b2) (b := own) (by rw [m3]; exact o2)
          exact ⟨none, h4, by simp only [print, M.bind, e1, e2, e3, e4, Option.bind_some]; rfl, o4, fun x hx => by rw [s4 x hx, m3, s2 x hx, s1 x hx], by simp, fun _ _ => rf⟩
        · obtain ⟨h4, e4, o4, s4⟩ := freeP (h := h3) (p := some b2) (b := c :: own) (o3.perm (by simp only [Option.toList]; reorder))
          refine ⟨some c, h4, by simp only [print, M.bind, e1, e2, e3, e4, Option.bind_some]; rfl, o4, fun x hx => ?_, ?_, by simp⟩
          · rw [s4 x (by simp [hx]), s3 x (by simp [hx]), s2 x hx, s1 x hx]
          · intro a ha
            cases ha
            exact ⟨w, rfl, by rw [s4 c (by simp), v3]⟩

/-- An array of `light` values, or an object without arrays and objects in it. -/
def flat : Json → Bool
  | .arr l => l.all light
  | .obj m => m.all fun p => scalar p.2
  | _ => true

/-- Is it an array or an object? -/
def tree : Json → Bool := fun j => !scalar j

/-- The last step of `top`. -/
theorem close_ok {h0 : Mem} {own lost : List Nat} (b : Bool) (c : Option (List Nat)) (v : Json) {h : Heap}
    (o : Owned h0 h.mem (c.getD [] ++ lost ++ own)) :
    ∃ r h', (match c with
        | none => M.pure (if b then .abort else .null)
        | some bs => if b then M.bind (freeAll bs) fun _ => M.pure .abort else M.pure (.item bs v) : M Made) h = some (r, h') ∧
      Owned h0 h'.mem (r.blocks ++ lost ++ own) ∧ (∀ bs w, r = .item bs w → w = v) ∧ (b = false → c.isSome = true → ∃ bs, r = .item bs v) := by
  cases c with
  | none => cases b with
    | true => exact ⟨.abort, h, rfl, o, by simp, by simp⟩
    | false => exact ⟨.null, h, rfl, o, by simp, by simp⟩
  | some bs => cases b with
    | true =>
      obtain ⟨h1, e1, o1, -⟩ := freeAll_ok (b := lost ++ own) bs (by rw [← List.append_assoc]; exact o)
      exact ⟨.abort, h1, by simp only [if_true, M.bind, e1, Option.bind_some]; rfl, o1, by simp, by simp⟩
    | false => exact ⟨.item bs v, h, rfl, o, by simp +contextual, fun _ _ => ⟨bs, rfl⟩⟩

theorem top_ok {A : Alloc} (hA : Fresh A) (chk : Bytes → Bool) (first : Bool) (j : Json) (ht : tree j = true) {h0 : Mem} {h : Heap} {own : List Nat}
    (o : Owned h0 h.mem own) :
    ∃ r h' lost, top A chk first j h = some (r, h') ∧ Owned h0 h'.mem (r.blocks ++ lost ++ own) ∧ (∀ bs v, r = .item bs v → Part v j) ∧
      (flat j = true → first = true → lost = []) ∧ (¬ Refused A h0 → (∃ bs, r = .item bs j) ∧ lost = []) := by
  rcases allocP hA o (.str []) with ⟨h1, e1, m1, rf⟩ | ⟨n, h1, e1, -, o1, -⟩
  · cases first with
    | true =>
      exact ⟨.abort, h1, [], by simp only [top, create, M.bind, e1, Option.bind_some]; rfl, by rw [m1]; exact o, by simp, fun _ _ => rfl, fun hr => absurd rf hr⟩
    | false =>
      cases j with
      | arr l =>
        obtain ⟨q, h2, lost, e2, o2, t2, p2, -, -⟩ := elems_ok hA chk l [] none (h := h1) (own := own) (by rw [m1]; exact o)
        obtain ⟨r, h3, e3, o3, p3, -⟩ := close_ok q.1 q.2.1 (.arr q.2.2) o2
        exact ⟨r, h3, lost, by simp only [top, create, M.bind, e1, Option.bind_some, Bool.and_false, Bool.false_eq_true, if_false, Option.map_none, e2]; exact e3, o3,
          fun bs v hv => by rw [p3 bs v hv]; exact .arr p2, by simp, fun hr => absurd rf hr⟩
      | obj l =>
        obtain ⟨q, h2, lost, e2, o2, t2, p2, -, -⟩ := members_ok hA chk l none (h := h1) (own := own) (by rw [m1]; exact o)
        obtain ⟨r, h3, e3, o3, p3, -⟩ := close_ok q.1 q.2.1 (.obj q.2.2) o2
        exact ⟨r, h3, lost, by simp only [top, create, M.bind, e1, Option.bind_some, Bool.and_false, Bool.false_eq_true, if_false, Option.map_none, e2]; exact e3, o3,
          fun bs v hv => by rw [p3 bs v hv]; exact .obj p2, by simp, fun hr => absurd rf hr⟩
      | _ => simp [tree, scalar] at ht
  · cases j with
    | arr l =>
      obtain ⟨q, h2, lost, e2, o2, t2, p2, f2, g2⟩ := elems_ok hA chk l [] (some [n]) (h := h1) (own := own) o1
      obtain ⟨r, h3, e3, o3, p3, g3⟩ := close_ok q.1 q.2.1 (.arr q.2.2) o2
      refine ⟨r, h3, lost, by simp only [top, create, M.bind, e1, Option.bind_some, Option.isNone_some, Bool.false_and, Bool.false_eq_true, if_false, Option.map_some, e2]; exact e3, o3,
          fun bs v hv => by rw [p3 bs v hv]; exact .arr p2, fun hf _ => f2 (by simpa [flat] using hf) rfl, fun hr => ?_⟩
      obtain ⟨a, b, d⟩ := g2 hr rfl
      rw [b] at g3
      exact ⟨g3 a t2, d⟩
    | obj l =>
      obtain ⟨q, h2, lost, e2, o2, t2, p2, f2, g2⟩ := members_ok hA chk l (some [n]) (h := h1) (own := own) o1
      obtain ⟨r, h3, e3, o3, p3, g3⟩ := close_ok q.1 q.2.1 (.obj q.2.2) o2
      refine ⟨r, h3, lost, by simp only [top, create, M.bind, e1, Option.bind_some, Option.isNone_some, Bool.false_and, Bool.false_eq_true, if_false, Option.map_some, e2]; exact e3, o3,
          fun bs v hv => by rw [p3 bs v hv]; exact .obj p2, fun hf _ => (f2 (by simpa [flat] using hf)).2, fun hr => ?_⟩
      obtain ⟨a, b, d⟩ := g2 hr rfl
      rw [b] at g3
      exact ⟨g3 a t2, d⟩
    | _ => simp [tree, scalar] at ht

theorem write_ok {A : Alloc} (hA : Fresh A) (g : Bytes → Nat) (chk : Bytes → Bool) (first fmt : Bool) (j : Json) (ht : tree j = true) {h0 : Mem} {h : Heap}
    {own : List Nat} (o : Owned h0 h.mem own) :
    ∃ t h' lost, write A g chk first fmt j h = some (t, h') ∧ Owned h0 h'.mem (t.toList ++ lost ++ own) ∧
      (∀ a, t = some a → ∃ v, Part v j ∧ h'.mem a = some (.str (Json.print fmt 0 v))) ∧ (flat j = true → first = true → lost = []) ∧
      (¬ Refused A h0 → lost = [] ∧ ∃ a, t = some a ∧ h'.mem a = some (.str (Json.print fmt 0 j))) := by
  obtain ⟨r, h1, lost, e1, o1, p1, f1, g1⟩ := top_ok hA chk first j ht o
  cases r with
  | abort =>
    refine ⟨none, h1, lost, by simp only [write, M.bind, e1, Option.bind_some]; rfl, o1, by simp, f1, fun hr => ?_⟩
    obtain ⟨⟨bs, hb⟩, -⟩ := g1 hr; cases hb
  | null =>
    obtain ⟨t, h2, e2, o2, s2, v2, -⟩ := print_ok hA g fmt none o1
    refine ⟨t, h2, lost, by simp only [write, M.bind, e1, Option.bind_some]; exact e2, by simpa [Made.blocks] using o2, ?_, f1, fun hr => ?_⟩
    · intro a ha; obtain ⟨w, hw, -⟩ := v2 a ha; cases hw
    · obtain ⟨⟨bs, hb⟩, -⟩ := g1 hr; cases hb
  | item bs v =>
    obtain ⟨t, h2, e2, o2, s2, v2, r2⟩ := print_ok hA g fmt (some v) o1
    obtain ⟨h3, e3, o3, s3⟩ := freeAll_ok (h := h2) (b := t.toList ++ lost ++ own) bs (o2.perm (by simp only [Made.blocks]; reorder))
    have hv : ∀ a, t = some a → h3.mem a = some (.str (Json.print fmt 0 v)) := by
      intro a ha
      obtain ⟨w, hw, hm⟩ := v2 a ha
      cases hw
      rw [s3 a (by simp [ha]), hm]
    refine ⟨t, h3, lost, by simp only [write, M.bind, e1, e2, e3, Option.bind_some]; rfl, o3, fun a ha => ⟨v, p1 bs v rfl, hv a ha⟩, f1, fun hr => ?_⟩
    obtain ⟨⟨bs', hb⟩, hl⟩ := g1 hr
    cases hb
    cases t with
    | none => exact absurd (r2 rfl rfl) hr
    | some a => exact ⟨hl, a, rfl, hv a rfl⟩

end Nostr.Own.Tree
