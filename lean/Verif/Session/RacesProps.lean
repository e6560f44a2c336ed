import Verif.Session.Races

/-!
# C187: which session data two threads can touch at the same time
-/

namespace Nostr.Session.Races.Props
open Nostr Nostr.Session.Races

/-! ## Specification -/

/-- The variable that the thread touches next, and whether it is written. -/
def next : Prog → Option (Loc × Bool)
  | .rd l _ => some (l, false)
  | .wr l _ _ => some (l, true)
  | _ => none

/-- Two threads touch the same variable at the same time, and one of them writes it. -/
def Race (s : St) (l : Loc) : Prop :=
  ∃ t u w, t ≠ u ∧ next (s.prog t) = some (l, true) ∧ next (s.prog u) = some (l, w)

/-- What can happen after the start of the program, with any threads making any calls. -/
def Reachable (s : St) : Prop := ∃ sched, s = run start sched

/-- The variables that have no common lock. -/
def Bare : Loc → Prop
  | .inited | .active _ | .expires _ => True
  | _ => False

/-! ## The discipline -/

/-- What a thread knows about the table. -/
inductive Ph
  | unknown
  | making
  | made
  deriving DecidableEq

/-- The locks with which a variable may be touched. -/
def may (H : Lock → Prop) (p : Ph) : Loc → Prop
  | .inited | .active _ | .expires _ => True
  | .max | .table | .rateStart | .rateCount | .id _ => H .big
  | .conn i | .perms i | .count i | .created i | .used i => H (.slot i) ∨ p = .making

/-- What is required of a write besides. -/
def mayW (p : Ph) (l : Loc) (v : Nat) : Prop :=
  (l = .max → p = .making) ∧ (l = .inited → p = .making ∧ v ≠ 0)

open Classical in
/-- What a thread learns from reading. -/
noncomputable def learn (H : Lock → Prop) (p : Ph) (l : Loc) (v : Nat) : Ph :=
  if p ≠ .unknown then p
  else if l = .max ∧ v ≠ 0 then .made
  else if l = .inited ∧ H .big then (if v = 0 then .making else .made)
  else p

/-- The rest of a call keeps the discipline, if the thread holds the locks `H`. -/
def Ok : Prog → (Lock → Prop) → Ph → Prop
  | .done, H, p => (∀ m, ¬ H m) ∧ p ≠ .making
  | .rd l k, H, p => may H p l ∧ ∀ v, Ok (k v) H (learn H p l v)
  | .wr l v k, H, p => may H p l ∧ mayW p l v ∧ Ok k H (if l = .inited then .made else p)
  | .lock m k, H, p => (∀ i, m = .slot i → p = .made) ∧ Ok k (fun x => x = m ∨ H x) p
  | .unlock m k, H, p => H m ∧ p ≠ .making ∧ Ok k (fun x => x ≠ m ∧ H x) p

/-- The invariant. -/
structure Inv (s : St) (ph : Nat → Ph) : Prop where
  ok : ∀ t, Ok (s.prog t) (fun m => s.owner m = some t) (ph t)
  made : ∀ t, ph t = .made → s.mem .inited ≠ 0
  making : ∀ t, ph t = .making → s.owner .big = some t ∧ s.mem .inited = 0
  table : s.mem .inited = 0 → s.mem .max ≠ 0 → ∃ t, ph t = .making
  slots : s.mem .inited = 0 → ∀ i, s.owner (.slot i) = none

/-! ### The programs keep the discipline -/

theorem learn_made (H : Lock → Prop) (l : Loc) (v : Nat) : learn H .made l v = .made := by simp [learn]

theorem learn_making (H : Lock → Prop) (l : Loc) (v : Nat) : learn H .making l v = .making := by simp [learn]

/-- Only the two variables teach something. -/
theorem learn_other (H : Lock → Prop) (p : Ph) {l : Loc} (v : Nat) (h1 : l ≠ .max) (h2 : l ≠ .inited) : learn H p l v = p := by
  simp [learn, h1, h2]

theorem scan_ok (H : Lock → Prop) (hb : H .big) (want : Nat) (k : Option Nat → Prog) (p : Ph) (hn : Ok (k none) H p) :
    ∀ n i, (n ≠ 0 → ∀ j, Ok (k (some j)) H p) → Ok (scan want k n i) H p := by
  intro n
  induction n with
  | zero => intro i _; exact hn
  | succ n ih =>
    intro i hs
    have hs' := hs (by omega)
    refine ⟨trivial, fun v => ?_⟩
    rw [learn_other H p v (by simp) (by simp)]
    dsimp only
    split
    · exact ih _ (fun _ => hs')
    · refine ⟨hb, fun w => ?_⟩
      rw [learn_other H p w (by simp) (by simp)]
      dsimp only
      split
      · exact hs' i
      · exact ih _ (fun _ => hs')

/-- Which locks are held matters, not how they are written. -/
theorem ok_congr {q : Prog} {H G : Lock → Prop} {p : Ph} (e : ∀ m, H m ↔ G m) (h : Ok q H p) : Ok q G p := by
  have : H = G := funext fun m => propext (e m)
  exact this ▸ h

def none' : Lock → Prop := fun _ => False

def only (m : Lock) : Lock → Prop := fun x => x = m

def both (i : Nat) : Lock → Prop := fun x => x = .slot i ∨ x = .big

theorem lock_big {k : Prog} {p : Ph} (h : Ok k (only .big) p) : Ok (.lock .big k) none' p :=
  ⟨fun i e => by simp at e, ok_congr (by simp [only, none']) h⟩

theorem unlock_only {m : Lock} {k : Prog} {p : Ph} (hp : p ≠ .making) (h : Ok k none' p) : Ok (.unlock m k) (only m) p :=
  ⟨rfl, hp, ok_congr (by intro x; simp [only, none']) h⟩

theorem lock_slot {i : Nat} {k : Prog} (h : Ok k (both i) .made) : Ok (.lock (.slot i) k) (only .big) .made :=
  ⟨fun _ _ => rfl, ok_congr (by intro x; simp [only, both]) h⟩

theorem unlock_big {i : Nat} {k : Prog} (h : Ok k (only (.slot i)) .made) : Ok (.unlock .big k) (both i) .made :=
  ⟨Or.inr rfl, by simp, ok_congr (by intro x; cases x <;> simp [only, both]) h⟩

theorem unlock_slot {i : Nat} {k : Prog} (h : Ok k (only .big) .made) : Ok (.unlock (.slot i) k) (both i) .made :=
  ⟨Or.inl rfl, by simp, ok_congr (by intro x; cases x <;> simp [only, both]) h⟩

theorem done_ok {p : Ph} (hp : p ≠ .making) : Ok .done none' p := ⟨fun _ h => h, hp⟩

/-- After the number of slots has been read, there are slots only if the table has been made. -/
theorem read_max {k : Nat → Prog} (h0 : ∀ p, p ≠ Ph.making → Ok (k 0) (only .big) p) (h1 : ∀ n, Ok (k n) (only .big) .made)
    {p : Ph} (hp : p ≠ .making) : Ok (.rd .max k) (only .big) p := by
  refine ⟨rfl, fun v => ?_⟩
  cases p with
  | making => exact absurd rfl hp
  | made => rw [learn_made]; exact h1 v
  | unknown =>
    by_cases hv : v = 0
    · subst hv
      simp only [learn]
      exact h0 _ (by simp)
    · have : learn (only .big) .unknown .max v = .made := by simp [learn, hv]
      rw [this]
      exact h1 v

theorem withSession_ok (want : Nat) (body : Nat → Prog) (hb : ∀ i, Ok (body i) (only (.slot i)) .made) :
    Ok (withSession want body) none' .unknown := by
  refine lock_big (read_max (fun p hp => ?_) (fun n => ?_) (by simp))
  · refine ⟨rfl, fun v => ?_⟩
    rw [learn_other _ _ _ (by simp) (by simp)]
    exact unlock_only hp (done_ok hp)
  · refine ⟨rfl, fun v => ?_⟩
    rw [learn_made]
    refine scan_ok (only .big) rfl _ _ _ ?_ _ _ (fun _ j => ?_)
    · exact unlock_only (by simp) (done_ok (by simp))
    · exact lock_slot (unlock_big (hb j))

theorem clear_ok (i : Nat) (k : Prog) (H : Lock → Prop) (hi : H (.slot i)) (hk : Ok (.unlock (.slot i) k) H .made) :
    Ok (clear i k) H .made := by
  simp [clear, Ok, may, mayW, learn, hi]
  simpa [Ok, hi] using hk

theorem cleanup_ok (now : Nat) (k : Prog) (hk : Ok k (only .big) .made) : ∀ n i, Ok (cleanup now k n i) (only .big) .made := by
  intro n
  induction n with
  | zero => intro i; exact hk
  | succ n ih =>
    intro i
    refine ⟨trivial, fun v => ?_⟩
    rw [learn_made]
    dsimp only
    split
    · exact ih _
    · refine ⟨trivial, fun e => ?_⟩
      rw [learn_made]
      dsimp only
      split
      · exact lock_slot (clear_ok _ _ _ (Or.inl rfl) (unlock_slot (ih _)))
      · exact ih _

theorem free_ok (k : Option Nat → Prog) (hk : ∀ o, Ok (k o) (only .big) .made) : ∀ n i, Ok (free k n i) (only .big) .made := by
  intro n
  induction n with
  | zero => intro i; exact hk none
  | succ n ih =>
    intro i
    refine ⟨trivial, fun v => ?_⟩
    rw [learn_made]
    dsimp only
    split
    · exact hk _
    · exact ih _

theorem stop_ok {p : Ph} (hp : p ≠ .making) : Ok (.unlock .big .done) (only .big) p := unlock_only hp (done_ok hp)

theorem fill_ok (fresh : Option Nat) (now to i : Nat) : Ok (fill fresh now to i) (only .big) .made := by
  refine lock_slot ?_
  cases fresh with
  | none => exact unlock_slot (stop_ok (by simp))
  | some v =>
    have h := unlock_slot (i := i) (stop_ok (p := .made) (by simp))
    simp [Ok, may, mayW, learn, both]
    simpa [Ok, both] using h

theorem createBody_ok (fresh : Option Nat) (now to : Nat) {p : Ph} (hp : p ≠ .making) : Ok (createBody fresh now to) none' p := by
  have go : ∀ {p : Ph}, p ≠ .making → Ok (createGo fresh now to) (only .big) p := by
    intro p hp
    refine ⟨rfl, fun c => ?_⟩
    rw [learn_other _ _ _ (by simp) (by simp)]
    dsimp only
    split
    · exact stop_ok hp
    · refine ⟨rfl, by simp [mayW], ?_⟩
      rw [if_neg (by simp)]
      refine read_max (fun q hq => ?_) (fun n => ?_) hp
      · refine ⟨rfl, fun v => ?_⟩
        rw [learn_other _ _ _ (by simp) (by simp)]
        exact stop_ok hq
      · refine ⟨rfl, fun v => ?_⟩
        rw [learn_made]
        refine cleanup_ok _ _ (free_ok _ (fun o => ?_) _ _) _ _
        cases o with
        | none => exact stop_ok (by simp)
        | some i => exact fill_ok _ _ _ _
  refine lock_big ⟨rfl, fun w => ?_⟩
  rw [learn_other _ _ _ (by simp) (by simp)]
  dsimp only
  split
  · refine ⟨rfl, by simp [mayW], rfl, by simp [mayW], ?_⟩
    simpa using go hp
  · exact go hp

theorem prepare_ok (k : Prog) (hk : Ok k (only .big) .making) : ∀ n i, Ok (prepare k n i) (only .big) .making := by
  intro n
  induction n with
  | zero => intro i; exact hk
  | succ n ih =>
    intro i
    have := ih (i + 1)
    simp [prepare, Ok, may, mayW, only]
    simpa [only] using this

theorem init_ok (n : Nat) (k : Prog) (hk : ∀ p, p ≠ Ph.making → Ok k none' p) : Ok (init n k) none' .unknown := by
  refine lock_big ⟨trivial, fun v => ?_⟩
  dsimp only
  by_cases hv : v = 0
  · have : learn (only .big) .unknown .inited v = .making := by simp [learn, only, hv]
    rw [this, if_pos hv]
    refine ⟨rfl, by simp [mayW], rfl, by simp [mayW], ?_⟩
    simp only [reduceCtorEq, if_false]
    refine prepare_ok (.wr .inited 1 (.unlock .big k)) ⟨trivial, by simp [mayW], ?_⟩ _ _
    rw [if_pos rfl]
    exact unlock_only (by simp) (hk _ (by simp))
  · have : learn (only .big) .unknown .inited v = .made := by simp [learn, only, hv]
    rw [this, if_neg hv]
    exact unlock_only (by simp) (hk _ (by simp))

theorem call_ok (c : Call) : Ok c.prog none' .unknown := by
  cases c with
  | init n => exact init_ok _ _ fun p hp => done_ok hp
  | create n g f now to =>
    have rest : ∀ p, p ≠ Ph.making → Ok (if g then createBody f now to else .done) none' p := by
      intro p hp
      cases g
      · exact done_ok hp
      · exact createBody_ok _ _ _ hp
    refine ⟨trivial, fun v => ?_⟩
    have : learn none' .unknown .inited v = .unknown := by simp [learn, none']
    rw [this]
    dsimp only
    split
    · exact init_ok _ _ rest
    · exact rest _ (by simp)
  | add id m =>
    refine withSession_ok _ _ fun i => ?_
    have h : Ok (.unlock (.slot i) .done) (only (.slot i)) .made := unlock_only (by simp) (done_ok (by simp))
    refine ⟨Or.inl rfl, fun c => ?_⟩
    rw [learn_made]
    dsimp only
    split
    · exact h
    · refine ⟨Or.inl rfl, fun q => ?_⟩
      rw [learn_made]
      dsimp only
      split
      · exact ⟨Or.inl rfl, by simp [mayW], Or.inl rfl, by simp [mayW], Or.inl rfl, by simp [mayW], by simpa using h⟩
      · exact ⟨Or.inl rfl, by simp [mayW], Or.inl rfl, by simp [mayW], by simpa using h⟩
  | check id now sp =>
    refine withSession_ok _ _ fun i => ?_
    have h : Ok (.unlock (.slot i) .done) (only (.slot i)) .made := unlock_only (by simp) (done_ok (by simp))
    refine ⟨trivial, fun e => ?_⟩
    rw [learn_made]
    dsimp only
    split
    · exact h
    · refine ⟨Or.inl rfl, by simp [mayW], Or.inl rfl, fun c => ⟨Or.inl rfl, fun q => ?_⟩⟩
      simp only [reduceCtorEq, if_false, learn_made]
      split
      · exact ⟨Or.inl rfl, by simp [mayW], by simpa using h⟩
      · exact h
  | get id now =>
    refine withSession_ok _ _ fun i => ?_
    have h : Ok (.unlock (.slot i) .done) (only (.slot i)) .made := unlock_only (by simp) (done_ok (by simp))
    refine ⟨trivial, fun e => ?_⟩
    rw [learn_made]
    dsimp only
    split
    · exact h
    · refine ⟨Or.inl rfl, by simp [mayW], Or.inl rfl, fun c => ?_⟩
      simpa only [reduceCtorEq, if_false, learn_made] using h
  | extend id secs =>
    refine withSession_ok _ _ fun i => ?_
    have h : Ok (.unlock (.slot i) .done) (only (.slot i)) .made := unlock_only (by simp) (done_ok (by simp))
    refine ⟨trivial, fun e => ?_⟩
    rw [learn_made]
    exact ⟨trivial, by simp [mayW], by simpa using h⟩
  | destroy id =>
    exact withSession_ok _ _ fun i => clear_ok _ _ _ rfl (unlock_only (by simp) (done_ok (by simp)))

/-! ### Every step keeps the invariant -/

theorem inv_start : Inv start fun _ => .unknown where
  ok _ := ⟨fun _ h => by simp [start] at h, by simp⟩
  made _ h := by simp at h
  making _ h := by simp at h
  table _ h := absurd rfl h
  slots _ _ := rfl

theorem set_same {α β : Type} [DecidableEq α] (f : α → β) (a : α) (b : β) : set f a b a = b := by simp [set]

theorem set_other {α β : Type} [DecidableEq α] (f : α → β) {a x : α} (b : β) (h : x ≠ a) : set f a b x = f x := by simp [set, h]

theorem inv_step {s : St} {ph : Nat → Ph} (h : Inv s ph) (t : Nat) (c : Call) : ∃ ph', Inv (step s t c) ph' := by
  have ht := h.ok t
  unfold step
  cases hp : s.prog t with
  | done =>
    rw [hp] at ht
    refine ⟨set ph t .unknown, ?_⟩
    constructor
    · intro u
      dsimp only
      by_cases hu : u = t
      · subst hu
        rw [set_same, set_same]
        exact ok_congr (fun m => by simp [none', ht.1 m]) (call_ok c)
      · rw [set_other _ _ hu, set_other _ _ hu]; exact h.ok u
    · intro u hu
      by_cases e : u = t
      · subst e; simp [set] at hu
      · rw [set_other _ _ e] at hu; exact h.made u hu
    · intro u hu
      by_cases e : u = t
      · subst e; simp [set] at hu
      · rw [set_other _ _ e] at hu; exact h.making u hu
    · intro h0 hm
      obtain ⟨u, hu⟩ := h.table h0 hm
      refine ⟨u, ?_⟩
      by_cases e : u = t
      · subst e; exact absurd hu ht.2
      · rw [set_other _ _ e]; exact hu
    · exact h.slots
  | rd l k =>
    rw [hp] at ht
    refine ⟨set ph t (learn (fun m => s.owner m = some t) (ph t) l (s.mem l)), ?_⟩
    constructor
    · intro u
      dsimp only
      by_cases hu : u = t
      · subst hu
        rw [set_same, set_same]
        exact ht.2 _
      · rw [set_other _ _ hu, set_other _ _ hu]; exact h.ok u
    · intro u hu
      by_cases e : u = t
      · subst e
        rw [set_same] at hu
        dsimp only
        unfold learn at hu
        split at hu
        · exact h.made u hu
        · rename_i hk
          split at hu
          · rename_i hl
            obtain ⟨rfl, hv⟩ := hl
            intro h0
            obtain ⟨w, hw⟩ := h.table h0 hv
            have h1 := (h.making w hw).1
            have h2 : s.owner .big = some u := ht.1
            rw [h2] at h1
            cases h1
            rw [hw] at hk
            exact hk (by simp)
          · split at hu
            · rename_i hl
              obtain ⟨rfl, _⟩ := hl
              split at hu
              · cases hu
              · assumption
            · exact h.made u hu
      · rw [set_other _ _ e] at hu; exact h.made u hu
    · intro u hu
      by_cases e : u = t
      · subst e
        rw [set_same] at hu
        dsimp only
        unfold learn at hu
        split at hu
        · exact h.making u hu
        · split at hu
          · cases hu
          · split at hu
            · rename_i hl
              obtain ⟨rfl, hb⟩ := hl
              split at hu
              · exact ⟨hb, by assumption⟩
              · cases hu
            · exact h.making u hu
      · rw [set_other _ _ e] at hu; exact h.making u hu
    · intro h0 hm
      obtain ⟨u, hu⟩ := h.table h0 hm
      refine ⟨u, ?_⟩
      by_cases e : u = t
      · subst e; rw [set_same, hu, learn_making]
      · rw [set_other _ _ e]; exact hu
    · exact h.slots
  | wr l v k =>
    rw [hp] at ht
    obtain ⟨hm, hw, hk⟩ := ht
    refine ⟨set ph t (if l = .inited then .made else ph t), ?_⟩
    have keep : l ≠ .inited → set s.mem l v .inited = s.mem .inited := fun hl => set_other _ _ (Ne.symm hl)
    constructor
    · intro u
      dsimp only
      by_cases hu : u = t
      · subst hu
        rw [set_same, set_same]
        exact hk
      · rw [set_other _ _ hu, set_other _ _ hu]; exact h.ok u
    · intro u hu
      dsimp only
      by_cases hl : l = .inited
      · subst hl
        rw [set_same]
        exact (hw.2 rfl).2
      · rw [keep hl]
        by_cases e : u = t
        · subst e
          rw [set_same, if_neg hl] at hu
          exact h.made u hu
        · rw [set_other _ _ e] at hu; exact h.made u hu
    · intro u hu
      dsimp only
      by_cases hl : l = .inited
      · subst hl
        by_cases e : u = t
        · subst e
          simp [set] at hu
        · rw [set_other _ _ e] at hu
          have h1 := (h.making u hu).1
          rw [(h.making t (hw.2 rfl).1).1] at h1
          cases h1
          exact absurd rfl e
      · rw [keep hl]
        by_cases e : u = t
        · subst e
          rw [set_same, if_neg hl] at hu
          exact h.making u hu
        · rw [set_other _ _ e] at hu; exact h.making u hu
    · intro h0 h1
      dsimp only at h0 h1
      by_cases hl : l = .inited
      · subst hl
        rw [set_same] at h0
        exact absurd h0 (hw.2 rfl).2
      · rw [keep hl] at h0
        by_cases hx : l = .max
        · subst hx
          exact ⟨t, by rw [set_same, if_neg hl]; exact hw.1 rfl⟩
        · rw [set_other _ _ (Ne.symm hx)] at h1
          obtain ⟨u, hu⟩ := h.table h0 h1
          refine ⟨u, ?_⟩
          by_cases e : u = t
          · subst e; rw [set_same, if_neg hl]; exact hu
          · rw [set_other _ _ e]; exact hu
    · intro h0
      dsimp only at h0 ⊢
      by_cases hl : l = .inited
      · subst hl
        rw [set_same] at h0
        exact absurd h0 (hw.2 rfl).2
      · rw [keep hl] at h0
        exact h.slots h0
  | lock m k =>
    rw [hp] at ht
    dsimp only
    by_cases ho : s.owner m = none
    · rw [if_pos ho]
      refine ⟨ph, ?_⟩
      constructor
      · intro u
        dsimp only
        by_cases hu : u = t
        · subst hu
          rw [set_same]
          refine ok_congr (fun x => ?_) ht.2
          by_cases hx : x = m
          · subst hx; simp [set_same]
          · simp [set_other _ _ hx, hx]
        · rw [set_other _ _ hu]
          refine ok_congr (fun x => ?_) (h.ok u)
          by_cases hx : x = m
          · subst hx; simp [set_same, ho, Ne.symm hu]
          · simp [set_other _ _ hx]
      · exact h.made
      · intro u hu
        obtain ⟨h1, h2⟩ := h.making u hu
        refine ⟨?_, h2⟩
        dsimp only
        rw [set_other _ _ (fun e => by subst e; rw [ho] at h1; cases h1)]
        exact h1
      · exact h.table
      · intro h0 i
        dsimp only
        by_cases e : Lock.slot i = m
        · exact absurd h0 (h.made t (ht.1 i e.symm))
        · rw [set_other _ _ e]; exact h.slots h0 i
    · rw [if_neg ho]
      exact ⟨ph, h⟩
  | unlock m k =>
    rw [hp] at ht
    obtain ⟨hm, hn, hk⟩ := ht
    refine ⟨ph, ?_⟩
    constructor
    · intro u
      dsimp only
      by_cases hu : u = t
      · subst hu
        rw [set_same]
        refine ok_congr (fun x => ?_) hk
        by_cases hx : x = m
        · subst hx; simp [set_same]
        · simp [set_other _ _ hx, hx]
      · rw [set_other _ _ hu]
        refine ok_congr (fun x => ?_) (h.ok u)
        by_cases hx : x = m
        · subst hx
          simp only [set_same]
          constructor
          · intro e; rw [hm] at e; cases e; exact absurd rfl hu
          · intro e; cases e
        · simp [set_other _ _ hx]
    · exact h.made
    · intro u hu
      obtain ⟨h1, h2⟩ := h.making u hu
      refine ⟨?_, h2⟩
      dsimp only
      rw [set_other _ _ (fun e => by
        subst e
        rw [hm] at h1
        cases h1
        exact hn hu)]
      exact h1
    · exact h.table
    · intro h0 i
      dsimp only
      by_cases e : Lock.slot i = m
      · rw [e, set_same]
      · rw [set_other _ _ e]; exact h.slots h0 i

theorem inv_run (sched : List (Nat × Call)) : ∀ {s : St} {ph : Nat → Ph}, Inv s ph → ∃ ph', Inv (run s sched) ph' := by
  induction sched with
  | nil => intro s ph h; exact ⟨ph, h⟩
  | cons x xs ih =>
    intro s ph h
    obtain ⟨ph', h'⟩ := inv_step h x.1 x.2
    exact ih h'

theorem next_may {q : Prog} {l : Loc} {w : Bool} {H : Lock → Prop} {p : Ph} (h : Ok q H p) (hn : next q = some (l, w)) : may H p l := by
  cases q with
  | rd l' k => cases hn; exact h.1
  | wr l' v k => cases hn; exact h.1
  | _ => cases hn

/-! ## Theorems -/

/-- With any number of threads, calls and sessions, two threads are never at the same variable unless both only read it, except for the
three kinds of variable that no common lock protects: whether there is a table, whether a session is in use, and when it ends. -/
theorem C187_protected_partial {s : St} (hs : Reachable s) {l : Loc} (hl : ¬ Bare l) : ¬ Race s l := by
  obtain ⟨sched, rfl⟩ := hs
  obtain ⟨ph, h⟩ := inv_run sched inv_start
  rintro ⟨t, u, w, htu, h1, h2⟩
  have m1 := next_may (h.ok t) h1
  have m2 := next_may (h.ok u) h2
  have big : (run start sched).owner .big = some t → (run start sched).owner .big = some u → False := by
    intro a b; rw [a] at b; cases b; exact htu rfl
  have slot : ∀ i, ((run start sched).owner (.slot i) = some t ∨ ph t = .making) →
      ((run start sched).owner (.slot i) = some u ∨ ph u = .making) → False := by
    intro i a b
    rcases a with a | a
    · rcases b with b | b
      · rw [a] at b; cases b; exact htu rfl
      · rw [h.slots (h.making u b).2 i] at a; cases a
    · rcases b with b | b
      · rw [h.slots (h.making t a).2 i] at b; cases b
      · exact big (h.making t a).1 (h.making u b).1
  cases l with
  | inited => exact hl trivial
  | active i => exact hl trivial
  | expires i => exact hl trivial
  | max => exact big m1 m2
  | table => exact big m1 m2
  | rateStart => exact big m1 m2
  | rateCount => exact big m1 m2
  | id i => exact big m1 m2
  | conn i => exact slot i m1 m2
  | perms i => exact slot i m1 m2
  | count i => exact slot i m1 m2
  | created i => exact slot i m1 m2
  | used i => exact slot i m1 m2

/-- A thread does `n` steps. -/
def by' (t : Nat) (c : Call) (n : Nat) : List (Nat × Call) := List.replicate n (t, c)

/-- Thread 0 makes the session 7 in a table of one session. -/
def one : List (Nat × Call) := by' 0 (.create 1 true (some 7) 5 100) 36

/-- One thread ends a session while another looks for a session: whether the session is in use is written and read at the same time. -/
theorem C187_active_refuted : ∃ s, Reachable s ∧ Race s (.active 0) :=
  ⟨_, ⟨one ++ by' 1 (.destroy 7) 8 ++ by' 2 (.get 7 6) 4, rfl⟩, 1, 2, false, by decide, by decide +kernel, by decide +kernel⟩

/-- One thread makes a session longer while another makes a session: when the first ends is written and read at the same time. -/
theorem C187_expires_refuted : ∃ s, Reachable s ∧ Race s (.expires 0) :=
  ⟨_, ⟨one ++ by' 1 (.extend 7 60) 9 ++ by' 2 (.create 1 true (some 8) 5 100) 9, rfl⟩, 1, 2, false, by decide, by decide +kernel,
    by decide +kernel⟩

/-- The first two sessions are made by two threads: whether there is a table is written and read at the same time. -/
theorem C187_first_refuted : ∃ s, Reachable s ∧ Race s .inited :=
  ⟨_, ⟨by' 1 (.create 1 true (some 7) 5 100) 11 ++ by' 2 (.create 1 true (some 8) 5 100) 1, rfl⟩, 1, 2, false, by decide,
    by decide +kernel, by decide +kernel⟩

/-- The three kinds are all: a variable without a number is raced exactly if it is the mark of the table, and in a table of one session the
raced members are exactly the two. -/
theorem C187_exact_partial (l : Loc) (h : ∀ i, l ≠ .active (i + 1) ∧ l ≠ .expires (i + 1)) :
    (∃ s, Reachable s ∧ Race s l) ↔ l = .inited ∨ l = .active 0 ∨ l = .expires 0 := by
  constructor
  · rintro ⟨s, hs, hr⟩
    by_cases hl : Bare l
    · cases l with
      | inited => exact Or.inl rfl
      | active i =>
        cases i with
        | zero => exact Or.inr (Or.inl rfl)
        | succ i => exact absurd rfl (h i).1
      | expires i =>
        cases i with
        | zero => exact Or.inr (Or.inr rfl)
        | succ i => exact absurd rfl (h i).2
      | _ => exact absurd hl (by simp [Bare])
    · exact absurd hr (C187_protected_partial hs hl)
  · rintro (rfl | rfl | rfl)
    · exact C187_first_refuted
    · exact C187_active_refuted
    · exact C187_expires_refuted

/-- Two threads are in calls on the same session and one is about to write its permissions; the other waits for the lock. -/
example : next ((run start (one ++ by' 1 (.add 7 3) 10 ++ by' 2 (.add 7 3) 12)).prog 1) = some (.perms 0, true) ∧
    (∃ k, (run start (one ++ by' 1 (.add 7 3) 10 ++ by' 2 (.add 7 3) 12)).prog 2 = .lock (.slot 0) k) :=
  ⟨by decide +kernel, _, rfl⟩

/-- The session is there when the call is over. -/
example : (run start one).mem (.active 0) = 1 ∧ (run start one).mem (.id 0) = 7 ∧ next ((run start one).prog 0) = none := by
  decide +kernel

end Nostr.Session.Races.Props
