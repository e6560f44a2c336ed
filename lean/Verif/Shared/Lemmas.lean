import Verif.Shared.Spec

/-! # A discipline for locks, and what follows from it -/

namespace Nostr.Shared

/-- How a variable may be touched: with a lock, written with the locks of the table and of the session and read with one of them, only read,
or anyhow. -/
inductive Rule where
  | under (l : Lock)
  | both
  | frozen
  | loose
  deriving DecidableEq

/-- A discipline: a rule for every variable, the flags whose value is known for good, and the locks a function may be called with. -/
structure Disc where
  rule : Var → Rule
  known : Var → Option Bool
  may : Nat → List Lock → Bool

def Lock.rank : Lock → Nat
  | .table => 0 | .session => 1 | .config => 2 | .context => 3 | .random => 4

/-- May `v` be touched with the locks `H`? -/
def Disc.allows (D : Disc) (v : Var) (w : Bool) (H : List Lock) : Bool :=
  match D.rule v with
  | .under l => H.contains l
  | .both => if w then H.contains .table && H.contains .session else H.contains .table || H.contains .session
  | .frozen => !w
  | .loose => true

/-- The locks a thread has after `p` if it has `H` before, provided `p` keeps to the discipline. -/
def Disc.flow (D : Disc) : Prog → List Lock → Option (List Lock)
  | .skip, H => some H
  | .lock l, H => if H.all (fun k => k.rank < l.rank) then some (l :: H) else none
  | .unlock l, H => if H.contains l then some (H.erase l) else none
  | .read v, H => if D.allows v false H then some H else none
  | .write v, H => if D.allows v true H then some H else none
  | .set v _, H => if D.allows v true H then some H else none
  | .test v a b, H =>
    if D.allows v false H then
      match D.known v with
      | some true => D.flow a H
      | some false => D.flow b H
      | none => if D.flow a H = D.flow b H then D.flow a H else none
    else none
  | .seq a b, H => (D.flow a H).bind (D.flow b)
  | .alt a b, H => if D.flow a H = D.flow b H then D.flow a H else none
  | .many a, H => if D.flow a H = some H then some H else none
  | .pick, H => if H.contains .session then none else some H
  | .call f, H => if D.may f H then some H else none
  | .user, H => if H = [] then some H else none

def Disc.flows (D : Disc) : List Prog → List Lock → Option (List Lock)
  | [], H => some H
  | p :: k, H => (D.flow p H).bind (D.flows k)

/-- The functions keep to the discipline. -/
structure Disc.Keeps (D : Disc) (fns : List Fn) : Prop where
  body : ∀ f H, D.may f H = true → D.flow (bodyOf fns f) H = some H
  entry : ∀ f, entryOf fns f = true → D.may f [] = true
  fixed : ∀ v b, D.known v = some b → D.rule v = .frozen
  member : ∀ v, D.rule v = .under .session ∨ D.rule v = .both → v.ofSession = true

structure Inv (D : Disc) (w : World) : Prop where
  thread : ∀ i, ∃ H : List Lock, D.flows (w.threads i).todo H = some [] ∧ H.Nodup ∧
    ∀ l n, w.owner l n = some i ↔ l ∈ H ∧ n = (w.threads i).num l
  flags : ∀ v b, D.known v = some b → w.flag v = b

/-- A step that changes neither owners nor flags nor the session. -/
theorem Inv.goto {D : Disc} {w : World} (h : Inv D w) {i : Nat} {p : List Prog}
    (hp : ∀ H, D.flows (w.threads i).todo H = some [] → D.flows p H = some []) : Inv D (w.goto i p) := by
  refine ⟨fun j => ?_, h.flags⟩
  by_cases e : j = i
  · subst e
    obtain ⟨H, h1, h2, h3⟩ := h.thread j
    refine ⟨H, ?_, h2, ?_⟩
    · simpa [World.goto] using hp H h1
    · simpa [World.goto, Thread.num] using h3
  · obtain ⟨H, h1, h2, h3⟩ := h.thread j
    refine ⟨H, ?_, h2, ?_⟩
    · simpa [World.goto, e] using h1
    · simpa [World.goto, e, Thread.num] using h3

theorem flow_ite {α : Type} {c : Prop} [Decidable c] {a : α} {r : α} (h : (if c then some a else none) = some r) : c ∧ a = r := by
  by_cases e : c
  · rw [if_pos e] at h; exact ⟨e, Option.some.inj h⟩
  · rw [if_neg e] at h; exact nomatch h

theorem flow_ite' {α : Type} {c : Prop} [Decidable c] {a : Option α} {r : α} (h : (if c then a else none) = some r) : c ∧ a = some r := by
  by_cases e : c
  · rw [if_pos e] at h; exact ⟨e, h⟩
  · rw [if_neg e] at h; exact nomatch h

theorem flows_cons {D : Disc} {p : Prog} {k : List Prog} {H r : List Lock} (h : D.flows (p :: k) H = some r) :
    ∃ G, D.flow p H = some G ∧ D.flows k G = some r := by
  simp only [Disc.flows] at h
  exact Option.bind_eq_some_iff.mp h

theorem flows_of {D : Disc} {p : Prog} {k : List Prog} {H G r : List Lock} (h : D.flow p H = some G) (hk : D.flows k G = some r) :
    D.flows (p :: k) H = some r := by
  simp [Disc.flows, h, hk]

/-- Every step keeps the invariant. -/
theorem Inv.next {D : Disc} {fns : List Fn} (K : D.Keeps fns) {w v : World} (h : Inv D w) {c i : Nat}
    (e : Shared.next fns c i w = some v) : Inv D v := by
  unfold Shared.next at e
  split at e
  · rename_i ht
    obtain ⟨hc, rfl⟩ := flow_ite e
    refine h.goto fun H hH => ?_
    rw [ht] at hH
    simp only [Disc.flows, Option.some.injEq] at hH
    subst hH
    exact flows_of (K.body _ _ (K.entry _ hc)) rfl
  · rename_i k ht
    cases e
    refine h.goto fun H hH => ?_
    rw [ht] at hH
    obtain ⟨G, h1, h2⟩ := flows_cons hH
    simp only [Disc.flow, Option.some.injEq] at h1
    subst h1; exact h2
  · rename_i l k ht
    obtain ⟨hf, rfl⟩ := flow_ite e
    refine ⟨fun j => ?_, h.flags⟩
    by_cases ej : j = i
    · subst ej
      obtain ⟨H, h1, h2, h3⟩ := h.thread j
      rw [ht] at h1
      obtain ⟨G, g1, g2⟩ := flows_cons h1
      simp only [Disc.flow] at g1
      obtain ⟨g3, rfl⟩ := flow_ite g1
      have hn : l ∉ H := fun hm => by
        have := (List.all_eq_true.mp g3) l hm
        simp at this
      refine ⟨l :: H, ?_, List.nodup_cons.mpr ⟨hn, h2⟩, fun l' n => ?_⟩
      · simpa [World.goto, World.own] using g2
      · by_cases el : l' = l ∧ n = (w.threads j).num l
        · simp only [World.goto, World.own, if_pos el, if_pos rfl, Thread.num]
          obtain ⟨rfl, rfl⟩ := el
          simp [Thread.num]
        · have ho : ((w.own l ((w.threads j).num l) (some j)).goto j k).owner l' n = w.owner l' n := if_neg el
          have hn' : (((w.own l ((w.threads j).num l) (some j)).goto j k).threads j).num l' = (w.threads j).num l' := by
            simp [World.goto, World.own, Thread.num]
          rw [ho, hn', h3 l' n, List.mem_cons]
          constructor
          · rintro ⟨a, b⟩; exact ⟨.inr a, b⟩
          · rintro ⟨rfl | a, b⟩
            · exact absurd ⟨rfl, b⟩ el
            · exact ⟨a, b⟩
    · obtain ⟨H, h1, h2, h3⟩ := h.thread j
      refine ⟨H, ?_, h2, fun l' n => ?_⟩
      · simpa [World.goto, World.own, ej] using h1
      · by_cases el : l' = l ∧ n = (w.threads i).num l
        · obtain ⟨rfl, rfl⟩ := el
          have := (h3 l' ((w.threads i).num l')).symm
          rw [hf] at this
          simp only [World.goto, World.own, Thread.num, if_neg ej] at *
          simp [Ne.symm ej]
          simpa using this
        · have ho : ((w.own l ((w.threads i).num l) (some i)).goto i k).owner l' n = w.owner l' n := if_neg el
          rw [ho, h3 l' n]
          simp [World.goto, World.own, ej, Thread.num]
  · rename_i l k ht
    obtain ⟨hf, rfl⟩ := flow_ite e
    refine ⟨fun j => ?_, h.flags⟩
    by_cases ej : j = i
    · subst ej
      obtain ⟨H, h1, h2, h3⟩ := h.thread j
      rw [ht] at h1
      obtain ⟨G, g1, g2⟩ := flows_cons h1
      simp only [Disc.flow] at g1
      obtain ⟨g3, rfl⟩ := flow_ite g1
      refine ⟨H.erase l, ?_, h2.erase l, fun l' n => ?_⟩
      · simpa [World.goto, World.own] using g2
      · by_cases el : l' = l ∧ n = (w.threads j).num l
        · obtain ⟨rfl, rfl⟩ := el
          simp [World.goto, World.own, Thread.num, h2.mem_erase_iff]
        · have ho : ((w.own l ((w.threads j).num l) none).goto j k).owner l' n = w.owner l' n := if_neg el
          have hn' : (((w.own l ((w.threads j).num l) none).goto j k).threads j).num l' = (w.threads j).num l' := by
            simp [World.goto, World.own, Thread.num]
          rw [ho, hn', h3 l' n, h2.mem_erase_iff]
          constructor
          · rintro ⟨a, b⟩
            exact ⟨⟨fun hl => el ⟨hl, by rw [b, hl]⟩, a⟩, b⟩
          · rintro ⟨⟨_, a⟩, b⟩; exact ⟨a, b⟩
    · obtain ⟨H, h1, h2, h3⟩ := h.thread j
      refine ⟨H, ?_, h2, fun l' n => ?_⟩
      · simpa [World.goto, World.own, ej] using h1
      · by_cases el : l' = l ∧ n = (w.threads i).num l
        · obtain ⟨rfl, rfl⟩ := el
          have := (h3 l' ((w.threads i).num l')).symm
          rw [hf] at this
          simp only [World.goto, World.own, Thread.num, if_neg ej] at *
          simp
          simpa [Ne.symm ej] using this
        · have ho : ((w.own l ((w.threads i).num l) none).goto i k).owner l' n = w.owner l' n := if_neg el
          rw [ho, h3 l' n]
          simp [World.goto, World.own, ej, Thread.num]
  · rename_i v' k ht
    cases e
    refine h.goto fun H hH => ?_
    rw [ht] at hH
    obtain ⟨G, h1, h2⟩ := flows_cons hH
    obtain ⟨_, rfl⟩ := flow_ite h1
    exact h2
  · rename_i v' k ht
    cases e
    refine h.goto fun H hH => ?_
    rw [ht] at hH
    obtain ⟨G, h1, h2⟩ := flows_cons hH
    obtain ⟨_, rfl⟩ := flow_ite h1
    exact h2
  · rename_i v' b k ht
    cases e
    have h' : Inv D (w.assign v' b) := by
      refine ⟨h.thread, fun u b' hu => ?_⟩
      by_cases eu : u = v'
      · subst eu
        obtain ⟨H, h1, _, _⟩ := h.thread i
        rw [ht] at h1
        obtain ⟨G, g1, _⟩ := flows_cons h1
        obtain ⟨g2, _⟩ := flow_ite g1
        simp [Disc.allows, K.fixed _ _ hu] at g2
      · simpa [World.assign, eu] using h.flags u b' hu
    refine h'.goto fun H hH => ?_
    have ht' : ((w.assign v' b).threads i).todo = .set v' b :: k := ht
    rw [ht'] at hH
    obtain ⟨G, h1, h2⟩ := flows_cons hH
    obtain ⟨_, rfl⟩ := flow_ite h1
    exact h2
  · rename_i v' a b k ht
    cases e
    refine h.goto fun H hH => ?_
    rw [ht] at hH
    obtain ⟨G, h1, h2⟩ := flows_cons hH
    simp only [Disc.flow] at h1
    obtain ⟨_, h1⟩ := flow_ite' h1
    cases hk : D.known v' with
    | some x =>
      have hx := h.flags v' x hk
      rw [hk] at h1
      cases x
      · rw [hx]; exact flows_of h1 h2
      · rw [hx]; exact flows_of h1 h2
    | none =>
      rw [hk] at h1
      obtain ⟨h3, h4⟩ := flow_ite' h1
      by_cases hx : w.flag v' = true
      · rw [if_pos hx]; exact flows_of h4 h2
      · rw [if_neg hx]; exact flows_of (h3 ▸ h4) h2
  · rename_i a b k ht
    cases e
    refine h.goto fun H hH => ?_
    rw [ht] at hH
    obtain ⟨G, h1, h2⟩ := flows_cons hH
    simp only [Disc.flow] at h1
    obtain ⟨F, f1, f2⟩ := Option.bind_eq_some_iff.mp h1
    exact flows_of f1 (flows_of f2 h2)
  · rename_i a b k ht
    cases e
    refine h.goto fun H hH => ?_
    rw [ht] at hH
    obtain ⟨G, h1, h2⟩ := flows_cons hH
    simp only [Disc.flow] at h1
    obtain ⟨h3, h4⟩ := flow_ite' h1
    by_cases hx : c = 0
    · rw [if_pos hx]; exact flows_of h4 h2
    · rw [if_neg hx]; exact flows_of (h3 ▸ h4) h2
  · rename_i a k ht
    cases e
    refine h.goto fun H hH => ?_
    rw [ht] at hH
    obtain ⟨G, h1, h2⟩ := flows_cons hH
    have h1' := h1
    simp only [Disc.flow] at h1
    obtain ⟨h3, rfl⟩ := flow_ite h1
    by_cases hx : c = 0
    · rw [if_pos hx]; exact h2
    · rw [if_neg hx]; exact flows_of h3 (flows_of h1' h2)
  · rename_i k ht
    cases e
    refine ⟨fun j => ?_, h.flags⟩
    obtain ⟨H, h1, h2, h3⟩ := h.thread j
    by_cases ej : j = i
    · subst ej
      rw [ht] at h1
      obtain ⟨G, g1, g2⟩ := flows_cons h1
      simp only [Disc.flow] at g1
      have hs : Lock.session ∉ H := fun hm => by
        rw [if_pos (by simpa using hm)] at g1; exact nomatch g1
      rw [if_neg (by simpa using hs)] at g1
      cases g1
      refine ⟨H, by simpa [World.goto, World.choose] using g2, h2, fun l n => ?_⟩
      have e3 := h3 l n
      by_cases el : l = .session
      · subst el
        simp only [hs, false_and, iff_false] at e3 ⊢
        exact e3
      · simpa [World.goto, World.choose, Thread.num, el] using e3
    · exact ⟨H, by simpa [World.goto, World.choose, ej] using h1, h2, fun l n => by
        simpa [World.goto, World.choose, ej, Thread.num] using h3 l n⟩
  · rename_i f k ht
    cases e
    refine h.goto fun H hH => ?_
    rw [ht] at hH
    obtain ⟨G, h1, h2⟩ := flows_cons hH
    simp only [Disc.flow] at h1
    obtain ⟨h3, rfl⟩ := flow_ite h1
    exact flows_of (K.body _ _ h3) h2
  · rename_i k ht
    by_cases hc : c = 0
    · rw [if_pos hc] at e
      cases e
      refine h.goto fun H hH => ?_
      rw [ht] at hH
      obtain ⟨G, h1, h2⟩ := flows_cons hH
      simp only [Disc.flow] at h1
      obtain ⟨h3, rfl⟩ := flow_ite h1
      exact h2
    · rw [if_neg hc] at e
      obtain ⟨hf, rfl⟩ := flow_ite e
      refine h.goto fun H hH => ?_
      rw [ht] at hH
      obtain ⟨G, h1, h2⟩ := flows_cons hH
      have h1' := h1
      simp only [Disc.flow] at h1
      obtain ⟨rfl, rfl⟩ := flow_ite h1
      exact flows_of (K.body _ _ (K.entry _ hf)) (flows_of h1' h2)

theorem Inv.reach {D : Disc} {fns : List Fn} (K : D.Keeps fns) {w v : World} (h : Inv D w) (r : Reach fns w v) : Inv D v := by
  induction r with
  | refl => exact h
  | step c i _ e ih => exact ih.next K e

theorem Inv.outside {D : Disc} {flags : Var → Bool} (h : ∀ v b, D.known v = some b → flags v = b) :
    Inv D (World.outside flags) :=
  ⟨fun _ => ⟨[], rfl, List.nodup_nil, fun l n => by simp [World.outside]⟩, h⟩

/-- What a thread is about to touch is allowed with the locks it has. -/
theorem Inv.allowed {D : Disc} {w : World} (h : Inv D w) {i : Nat} {v : Var} {a : Bool}
    (e : (w.threads i).access = some (v, a)) :
    ∃ H, D.allows v a H = true ∧ ∀ l, l ∈ H → w.owner l ((w.threads i).num l) = some i := by
  obtain ⟨H, h1, _, h3⟩ := h.thread i
  refine ⟨H, ?_, fun l hl => (h3 l _).mpr ⟨hl, rfl⟩⟩
  unfold Thread.access at e
  split at e
  all_goals first
    | (cases e; rename_i ht; rw [ht] at h1; obtain ⟨G, g1, _⟩ := flows_cons h1; exact (flow_ite g1).1)
    | (cases e; rename_i ht; rw [ht] at h1; obtain ⟨G, g1, _⟩ := flows_cons h1; exact (flow_ite' g1).1)
    | exact nomatch e

/-- Only loose variables can be raced for. -/
theorem Inv.race {D : Disc} {fns : List Fn} (K : D.Keeps fns) {w : World} (h : Inv D w) {v : Var} (r : w.Race v) :
    D.rule v = .loose := by
  obtain ⟨i, j, hij, a, b, ha, hb, hw, hc⟩ := r
  obtain ⟨H, p1, p2⟩ := h.allowed ha
  obtain ⟨G, q1, q2⟩ := h.allowed hb
  have clash : ∀ l, (l = .session → (w.threads i).cur = (w.threads j).cur) → l ∈ H → l ∈ G → False := by
    intro l hs p1 q1
    have e1 := p2 l p1
    have e2 := q2 l q1
    have en : (w.threads i).num l = (w.threads j).num l := by
      unfold Thread.num
      by_cases el : l = .session
      · rw [if_pos el, if_pos el]; exact hs el
      · rw [if_neg el, if_neg el]
    rw [en, e2] at e1
    exact absurd (Option.some.inj e1).symm hij
  cases hr : D.rule v with
  | loose => rfl
  | frozen =>
    simp only [Disc.allows, hr] at p1 q1
    rcases hw with rfl | rfl
    · exact absurd p1 (by decide)
    · exact absurd q1 (by decide)
  | under l =>
    simp only [Disc.allows, hr, List.contains_iff_mem] at p1 q1
    exact (clash l (fun el => hc (K.member v (.inl (by rw [hr, el])))) p1 q1).elim
  | both =>
    have hs := hc (K.member v (.inr hr))
    simp only [Disc.allows, hr] at p1 q1
    rcases hw with rfl | rfl
    · simp only [if_true, Bool.and_eq_true, List.contains_iff_mem] at p1
      have q3 : Lock.table ∈ G ∨ Lock.session ∈ G := by
        cases b <;> simp only [if_true, Bool.false_eq_true, if_false, Bool.and_eq_true, Bool.or_eq_true, List.contains_iff_mem] at q1
        · exact q1
        · exact .inl q1.1
      rcases q3 with q3 | q3
      · exact (clash .table (fun el => nomatch el) p1.1 q3).elim
      · exact (clash .session (fun _ => hs) p1.2 q3).elim
    · simp only [if_true, Bool.and_eq_true, List.contains_iff_mem] at q1
      have q3 : Lock.table ∈ H ∨ Lock.session ∈ H := by
        cases a <;> simp only [if_true, Bool.false_eq_true, if_false, Bool.and_eq_true, Bool.or_eq_true, List.contains_iff_mem] at p1
        · exact p1
        · exact .inl p1.1
      rcases q3 with q3 | q3
      · exact (clash .table (fun el => nomatch el) q3 q1.1).elim
      · exact (clash .session (fun _ => hs) q3 q1.2).elim

/-- A thread inside the library that does not wait can go on. -/
theorem Inv.step {D : Disc} {fns : List Fn} {w : World} (h : Inv D w) {i : Nat}
    (hi : (w.threads i).todo ≠ []) (hn : ∀ j, ¬ w.Waits i j) : ∃ c v, Shared.next fns c i w = some v := by
  obtain ⟨H, h1, _, h3⟩ := h.thread i
  refine ⟨0, ?_⟩
  unfold Shared.next
  split
  · rename_i ht; exact absurd ht hi
  · exact ⟨_, rfl⟩
  · rename_i l k ht
    cases ho : w.owner l ((w.threads i).num l) with
    | none => exact ⟨_, if_pos rfl⟩
    | some j => exact absurd ⟨l, k, ht, ho⟩ (hn j)
  · rename_i l k ht
    rw [ht] at h1
    obtain ⟨G, g1, _⟩ := flows_cons h1
    obtain ⟨g2, _⟩ := flow_ite g1
    exact ⟨_, if_pos ((h3 l _).mpr ⟨by simpa using g2, rfl⟩)⟩
  all_goals first | exact ⟨_, rfl⟩ | exact ⟨_, if_pos rfl⟩

theorem Lock.rank_le (l : Lock) : l.rank ≤ 4 := by cases l <;> decide

/-- Whoever waits, waits at the end for somebody who can go on. -/
theorem Inv.chain {D : Disc} {fns : List Fn} {w : World} (h : Inv D w) :
    ∀ (n i : Nat), (w.threads i).todo ≠ [] →
      (∀ l k, (w.threads i).todo = .lock l :: k → 5 - l.rank ≤ n) →
      ∃ j, w.Chain i j ∧ ∃ c v, Shared.next fns c j w = some v := by
  intro n
  induction n with
  | zero =>
    intro i hi hl
    refine ⟨i, .here i, h.step hi fun j ⟨l, k, e, _⟩ => ?_⟩
    have := hl l k e; have := l.rank_le; omega
  | succ n ih =>
    intro i hi hl
    by_cases hw : ∃ j, w.Waits i j
    · obtain ⟨j, hw⟩ := hw
      obtain ⟨l, k, e, ho⟩ := hw
      obtain ⟨H, h1, _, h3⟩ := h.thread j
      have hm : l ∈ H := ((h3 l _).mp ho).1
      have hj : (w.threads j).todo ≠ [] := fun hj => by
        rw [hj] at h1
        simp only [Disc.flows, Option.some.injEq] at h1
        rw [h1] at hm
        exact nomatch hm
      obtain ⟨m, c, s⟩ := ih j hj fun l' k' e' => by
        rw [e'] at h1
        obtain ⟨G, g1, _⟩ := flows_cons h1
        obtain ⟨g2, _⟩ := flow_ite g1
        have := List.all_eq_true.mp g2 l hm
        have hlt : l.rank < l'.rank := by simpa using this
        have := hl l k e
        have := l'.rank_le
        omega
      exact ⟨m, .more ⟨l, k, e, ho⟩ c, s⟩
    · exact ⟨i, .here i, h.step hi fun j hj => hw ⟨j, hj⟩⟩

theorem Inv.goes {D : Disc} {fns : List Fn} {w : World} (h : Inv D w) {i : Nat} (hi : (w.threads i).todo ≠ []) :
    ∃ j, w.Chain i j ∧ ∃ c v, Shared.next fns c j w = some v :=
  h.chain 5 i hi fun _ _ _ => Nat.sub_le _ _

end Nostr.Shared
