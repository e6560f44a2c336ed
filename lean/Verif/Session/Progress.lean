import Verif.Session.RacesProps

/-!
# C97: session calls come back

On the model of `Verif/Session/Races.lean`, in which every call, creating a session included, is a program of single reads, writes
and operations on the locks.
-/

namespace Nostr.Session.Races.Props
open Nostr Nostr.Session.Races

/-! ## Specification -/

/-- The thread is in a call. -/
def UnderWay (s : St) (t : Nat) : Prop := s.prog t ≠ .done

/-- The thread waits for a lock that is taken. -/
def Waits (s : St) (t : Nat) : Prop := ∃ m k, s.prog t = .lock m k ∧ s.owner m ≠ none

/-- A call that is under way and does not wait makes a step. -/
def Moves (s s' : St) : Prop := ∃ t c, UnderWay s t ∧ ¬ Waits s t ∧ s' = step s t c

/-- Any number of such steps. -/
inductive Goes : St → St → Prop
  | refl (s : St) : Goes s s
  | step {s s' s'' : St} : Moves s s' → Goes s' s'' → Goes s s''

/-! ## The order of the locks -/

/-- The big lock is asked for with no lock in hand, the lock of a session with only the big lock in hand; nothing is in hand at the
end. -/
def Ordered : Prog → (Lock → Prop) → Prop
  | .done, H => ∀ m, ¬ H m
  | .rd _ k, H => ∀ v, Ordered (k v) H
  | .wr _ _ k, H => Ordered k H
  | .lock .big k, H => (∀ m, ¬ H m) ∧ Ordered k (only .big)
  | .lock (.slot i) k, H => (∀ m, H m ↔ m = .big) ∧ Ordered k (both i)
  | .unlock m k, H => H m ∧ Ordered k (fun x => x ≠ m ∧ H x)

theorem ordered_congr {q : Prog} {H G : Lock → Prop} (e : ∀ m, H m ↔ G m) (h : Ordered q H) : Ordered q G := by
  have : H = G := funext fun m => propext (e m)
  exact this ▸ h

theorem ord_big {k : Prog} (h : Ordered k (only .big)) : Ordered (.lock .big k) none' := ⟨fun _ h => h, h⟩

theorem ord_slot {i : Nat} {k : Prog} (h : Ordered k (both i)) : Ordered (.lock (.slot i) k) (only .big) := ⟨fun _ => Iff.rfl, h⟩

theorem ord_unlock {m : Lock} {k : Prog} (h : Ordered k none') : Ordered (.unlock m k) (only m) :=
  ⟨rfl, ordered_congr (by intro x; simp [only, none']) h⟩

theorem ord_unlock_big {i : Nat} {k : Prog} (h : Ordered k (only (.slot i))) : Ordered (.unlock .big k) (both i) :=
  ⟨Or.inr rfl, ordered_congr (by intro x; cases x <;> simp [only, both]) h⟩

theorem ord_unlock_slot {i : Nat} {k : Prog} (h : Ordered k (only .big)) : Ordered (.unlock (.slot i) k) (both i) :=
  ⟨Or.inl rfl, ordered_congr (by intro x; cases x <;> simp [only, both]) h⟩

theorem ord_done : Ordered .done none' := fun _ h => h

theorem ord_last (m : Lock) : Ordered (.unlock m .done) (only m) := ord_unlock ord_done

theorem ord_scan (want : Nat) (k : Option Nat → Prog) (hk : ∀ o, Ordered (k o) (only .big)) :
    ∀ n i, Ordered (scan want k n i) (only .big) := by
  intro n
  induction n with
  | zero => intro i; exact hk none
  | succ n ih =>
    intro i v
    dsimp only
    split
    · exact ih _
    · intro w
      dsimp only
      split
      · exact hk _
      · exact ih _

theorem ord_withSession (want : Nat) (body : Nat → Prog) (hb : ∀ i, Ordered (body i) (only (.slot i))) :
    Ordered (withSession want body) none' := by
  refine ord_big fun n v => ord_scan _ _ (fun o => ?_) _ _
  cases o with
  | none => exact ord_last _
  | some i => exact ord_slot (ord_unlock_big (hb i))

theorem ord_clear (i : Nat) (k : Prog) (H : Lock → Prop) (hk : Ordered (.unlock (.slot i) k) H) : Ordered (clear i k) H :=
  fun _ _ _ => hk

theorem ord_cleanup (now : Nat) (k : Prog) (hk : Ordered k (only .big)) : ∀ n i, Ordered (cleanup now k n i) (only .big) := by
  intro n
  induction n with
  | zero => intro i; exact hk
  | succ n ih =>
    intro i v
    dsimp only
    split
    · exact ih _
    · intro e
      dsimp only
      split
      · exact ord_slot (ord_clear _ _ _ (ord_unlock_slot (ih _)))
      · exact ih _

theorem ord_free (k : Option Nat → Prog) (hk : ∀ o, Ordered (k o) (only .big)) : ∀ n i, Ordered (free k n i) (only .big) := by
  intro n
  induction n with
  | zero => intro i; exact hk none
  | succ n ih =>
    intro i v
    dsimp only
    split
    · exact hk _
    · exact ih _

theorem ord_fill (fresh : Option Nat) (now to i : Nat) : Ordered (fill fresh now to i) (only .big) := by
  refine ord_slot ?_
  cases fresh with
  | none => exact ord_unlock_slot (ord_last _)
  | some v => exact fun _ _ _ => ord_unlock_slot (ord_last _)

theorem ord_createBody (fresh : Option Nat) (now to : Nat) : Ordered (createBody fresh now to) none' := by
  have go : Ordered (createGo fresh now to) (only .big) := by
    intro c
    dsimp only
    split
    · exact ord_last _
    · intro n v
      refine ord_cleanup _ _ (ord_free _ (fun o => ?_) _ _) _ _
      cases o with
      | none => exact ord_last _
      | some i => exact ord_fill _ _ _ _
  refine ord_big fun w => ?_
  dsimp only
  split
  · exact go
  · exact go

theorem ord_prepare (k : Prog) (hk : Ordered k (only .big)) : ∀ n i, Ordered (prepare k n i) (only .big) := by
  intro n
  induction n with
  | zero => intro i; exact hk
  | succ n ih => intro i; exact ih (i + 1)

theorem ord_init (n : Nat) (k : Prog) (hk : Ordered k none') : Ordered (init n k) none' := by
  refine ord_big fun v => ?_
  dsimp only
  split
  · exact ord_prepare (.wr .inited 1 (.unlock .big k)) (ord_unlock hk) n 0
  · exact ord_unlock hk

theorem ord_call (c : Call) : Ordered c.prog none' := by
  cases c with
  | init n => exact ord_init _ _ ord_done
  | create n g f now to =>
    have rest : Ordered (if g then createBody f now to else .done) none' := by
      cases g
      · exact ord_done
      · exact ord_createBody _ _ _
    intro v
    dsimp only
    split
    · exact ord_init _ _ rest
    · exact rest
  | add id m =>
    refine ord_withSession _ _ fun i c => ?_
    dsimp only
    split
    · exact ord_last _
    · intro p
      dsimp only
      split <;> exact ord_last _
  | check id now sp =>
    refine ord_withSession _ _ fun i e => ?_
    dsimp only
    split
    · exact ord_last _
    · intro c p
      dsimp only
      split <;> exact ord_last _
  | get id now =>
    refine ord_withSession _ _ fun i e => ?_
    dsimp only
    split
    · exact ord_last _
    · exact fun _ => ord_last _
  | extend id secs => exact ord_withSession _ _ fun i e => ord_last _
  | destroy id => exact ord_withSession _ _ fun i => ord_clear _ _ _ (ord_last _)

/-- Every thread keeps the order. -/
def Orderly (s : St) : Prop := ∀ t, Ordered (s.prog t) (fun m => s.owner m = some t)

theorem orderly_step {s : St} (h : Orderly s) (t : Nat) (c : Call) : Orderly (step s t c) := by
  have ht := h t
  intro u
  unfold step
  by_cases hu : u = t
  · subst hu
    cases hp : s.prog u with
    | done =>
      rw [hp] at ht
      simp only [set_same]
      exact ordered_congr (fun m => ⟨fun e => e.elim, fun e => ht m e⟩) (ord_call c)
    | rd l k => rw [hp] at ht; simp only [set_same]; exact ht _
    | wr l v k => rw [hp] at ht; simp only [set_same]; exact ht
    | lock m k =>
      rw [hp] at ht
      dsimp only
      split
      · simp only [set_same]
        cases m with
        | big =>
          refine ordered_congr (fun m => ?_) ht.2
          have := ht.1 m
          by_cases e : m = .big
          · subst e; simp [only, set_same]
          · simp [only, e, set_other, this]
        | slot i =>
          refine ordered_congr (fun m => ?_) ht.2
          have := ht.1 m
          by_cases e : m = .slot i
          · subst e; simp [both, set_same]
          · simp only [both, e, set_other _ _ e, false_or]
            exact this.symm
      · rw [hp]; exact ht
    | unlock m k =>
      rw [hp] at ht
      simp only [set_same]
      refine ordered_congr (fun x => ?_) ht.2
      by_cases e : x = m
      · subst e; simp [set_same]
      · simp [e, set_other]
  · have hh := h u
    cases hp : s.prog t with
    | done => simp only [set_other _ _ hu]; exact hh
    | rd l k => simp only [set_other _ _ hu]; exact hh
    | wr l v k => simp only [set_other _ _ hu]; exact hh
    | lock m k =>
      dsimp only
      split
      · rename_i hm
        simp only [set_other _ _ hu]
        refine ordered_congr (fun x => ?_) hh
        by_cases e : x = m
        · subst e; simp [set_same, hm, Ne.symm hu]
        · simp [set_other _ _ e]
      · exact hh
    | unlock m k =>
      rw [hp] at ht
      have hm : s.owner m = some t := ht.1
      simp only [set_other _ _ hu]
      refine ordered_congr (fun x => ?_) hh
      by_cases e : x = m
      · subst e; simp [set_same, hm, Ne.symm hu]
      · simp [set_other _ _ e]

theorem orderly_run (sched : List (Nat × Call)) : ∀ {s : St}, Orderly s → Orderly (run s sched) := by
  induction sched with
  | nil => intro s h; exact h
  | cons x sched ih => intro s h; exact ih (orderly_step h x.1 x.2)

theorem orderly_reach {s : St} (h : Reachable s) : Orderly s := by
  obtain ⟨sched, rfl⟩ := h
  exact orderly_run sched fun t m e => by simp [start] at e

/-! ## Only finitely many threads are in calls -/

theorem quiet_step {s : St} {n : Nat} (h : ∀ t, n ≤ t → s.prog t = .done) (t : Nat) (ht : t < n) (c : Call) :
    ∀ u, n ≤ u → (step s t c).prog u = .done := by
  intro u hu
  have hne : u ≠ t := by omega
  unfold step
  cases s.prog t with
  | lock m k => dsimp only; split <;> simp only [set_other _ _ hne, h u hu]
  | _ => simp only [set_other _ _ hne, h u hu]

theorem quiet_run (sched : List (Nat × Call)) : ∀ {s : St}, (∃ n, ∀ t, n ≤ t → s.prog t = .done) →
    ∃ n, ∀ t, n ≤ t → (run s sched).prog t = .done := by
  induction sched with
  | nil => intro s h; exact h
  | cons x sched ih =>
    rintro s ⟨n, h⟩
    refine ih (s := step s x.1 x.2) ⟨max n (x.1 + 1), quiet_step (fun t ht => h t ?_) _ ?_ _⟩
    · omega
    · omega

theorem quiet_reach {s : St} (h : Reachable s) : ∃ n, ∀ t, n ≤ t → s.prog t = .done := by
  obtain ⟨sched, rfl⟩ := h
  exact quiet_run sched ⟨0, fun _ _ => rfl⟩

/-! ## Programs end -/

/-- What a step leaves of a program. -/
inductive Less : Prog → Prog → Prop
  | rd (l : Loc) (k : Nat → Prog) (v : Nat) : Less (k v) (.rd l k)
  | wr (l : Loc) (v : Nat) (k : Prog) : Less k (.wr l v k)
  | lock (m : Lock) (k : Prog) : Less k (.lock m k)
  | unlock (m : Lock) (k : Prog) : Less k (.unlock m k)

theorem less_acc (p : Prog) : Acc Less p := by
  induction p with
  | done => exact ⟨_, fun _ h => by cases h⟩
  | rd l k ih => exact ⟨_, fun _ h => by cases h; exact ih _⟩
  | wr l v k ih => exact ⟨_, fun _ h => by cases h; exact ih⟩
  | lock m k ih => exact ⟨_, fun _ h => by cases h; exact ih⟩
  | unlock m k ih => exact ⟨_, fun _ h => by cases h; exact ih⟩

/-- One of several programs makes a step. -/
inductive LessL : List Prog → List Prog → Prop
  | head {p q : Prog} {l : List Prog} : Less p q → LessL (p :: l) (q :: l)
  | tail {p : Prog} {l l' : List Prog} : LessL l l' → LessL (p :: l) (p :: l')

theorem lessL_acc (l : List Prog) : Acc LessL l := by
  induction l with
  | nil => exact ⟨_, fun _ h => by cases h⟩
  | cons p l ih =>
    induction less_acc p generalizing l with
    | intro p _ ihp =>
      induction ih with
      | intro l hl ihl =>
        refine ⟨_, fun _ h => ?_⟩
        cases h with
        | head h => exact ihp _ h _ ⟨_, hl⟩
        | tail h => exact ihl _ h

theorem lessL_of {f g : Nat → Prog} {t : Nat} (hl : Less (g t) (f t)) (ho : ∀ u, u ≠ t → g u = f u) :
    ∀ {is : List Nat}, is.Nodup → t ∈ is → LessL (is.map g) (is.map f) := by
  intro is
  induction is with
  | nil => intro _ h; simp at h
  | cons i is ih =>
    intro hn hm
    obtain ⟨h1, h2⟩ := List.nodup_cons.1 hn
    simp only [List.map_cons]
    by_cases e : i = t
    · subst e
      have : is.map g = is.map f := List.map_congr_left fun u hu => ho u (by rintro rfl; exact h1 hu)
      rw [this]
      exact .head hl
    · rw [ho i e]
      exact .tail (ih h2 (by simpa [Ne.symm e] using hm))

theorem moves_less {s : St} {t : Nat} (hu : UnderWay s t) (hw : ¬ Waits s t) (c : Call) :
    Less ((step s t c).prog t) (s.prog t) ∧ ∀ u, u ≠ t → (step s t c).prog u = s.prog u := by
  unfold step
  cases hp : s.prog t with
  | done => exact absurd hp hu
  | rd l k => simp only [set_same]; exact ⟨.rd _ _ _, fun u h => set_other _ _ h⟩
  | wr l v k => simp only [set_same]; exact ⟨.wr _ _ _, fun u h => set_other _ _ h⟩
  | lock m k =>
    have : s.owner m = none := Classical.byContradiction fun e => hw ⟨m, k, hp, e⟩
    simp only [this, if_true, set_same]
    exact ⟨.lock _ _, fun u h => set_other _ _ h⟩
  | unlock m k => simp only [set_same]; exact ⟨.unlock _ _, fun u h => set_other _ _ h⟩

theorem moves_acc {n : Nat} (l : List Prog) (h : Acc LessL l) : ∀ s : St, (∀ t, n ≤ t → s.prog t = .done) →
    (List.range n).map s.prog = l → Acc (fun a b => Moves b a) s := by
  induction h with
  | intro l _ ih =>
    rintro s hq rfl
    refine ⟨_, fun s' hm => ?_⟩
    obtain ⟨t, c, hu, hw, rfl⟩ := hm
    have ht : t < n := Nat.lt_of_not_le fun e => hu (hq t e)
    obtain ⟨h1, h2⟩ := moves_less hu hw c
    exact ih _ (lessL_of h1 h2 List.nodup_range (List.mem_range.2 ht)) _ (quiet_step hq t ht c) rfl

/-! ## C97 -/

/-- C97: whenever calls are under way, creating sessions and the first initialisation included, one of them does not wait. -/
theorem C97_every_call {s : St} (h : Reachable s) {t : Nat} (ht : UnderWay s t) : ∃ u, UnderWay s u ∧ ¬ Waits s u := by
  have ho := orderly_reach h
  have slot : ∀ {i u : Nat}, s.owner (.slot i) = some u → UnderWay s u ∧ ¬ Waits s u := by
    intro i u hs
    have hu := ho u
    refine ⟨fun e => ?_, ?_⟩
    · rw [e] at hu; exact hu _ hs
    · rintro ⟨m, k, e, -⟩
      rw [e] at hu
      cases m with
      | big => exact hu.1 _ hs
      | slot j => exact absurd ((hu.1 _).1 hs) (by simp)
  have big : ∀ {u : Nat}, s.owner .big = some u → ∃ u, UnderWay s u ∧ ¬ Waits s u := by
    intro u hb
    have hu := ho u
    by_cases hw : Waits s u
    · obtain ⟨m, k, e, hm⟩ := hw
      rw [e] at hu
      cases m with
      | big => exact absurd hb (hu.1 _)
      | slot i =>
        obtain ⟨w, hw⟩ := Option.ne_none_iff_exists'.1 hm
        exact ⟨w, slot hw⟩
    · exact ⟨u, fun e => by rw [e] at hu; exact hu _ hb, hw⟩
  by_cases hw : Waits s t
  · obtain ⟨m, k, -, hm⟩ := hw
    obtain ⟨w, hw⟩ := Option.ne_none_iff_exists'.1 hm
    cases m with
    | big => exact big hw
    | slot i => exact ⟨w, slot hw⟩
  · exact ⟨t, ht, hw⟩

/-- C97: whoever holds a lock is in a call. -/
theorem C97_holder {s : St} (h : Reachable s) {m : Lock} {t : Nat} (hm : s.owner m = some t) : UnderWay s t := by
  intro e
  have := orderly_reach h t
  rw [e] at this
  exact this m hm

/-- C97: the calls that are under way come back, in whatever order they go on: without new calls there are only finitely many steps, and
where no step is left every call has come back and no lock is held. -/
theorem C97_returns {s : St} (h : Reachable s) :
    Acc (fun a b => Moves b a) s ∧ ∀ s', Goes s s' → (∀ s'', ¬ Moves s' s'') → (∀ t, ¬ UnderWay s' t) ∧ ∀ m, s'.owner m = none := by
  obtain ⟨n, hn⟩ := quiet_reach h
  refine ⟨moves_acc _ (lessL_acc _) s hn rfl, fun s' hg hs => ?_⟩
  have hr : Reachable s' := by
    clear hn
    induction hg with
    | refl s => exact h
    | step hm _ ih =>
      obtain ⟨t, c, -, -, rfl⟩ := hm
      obtain ⟨sched, rfl⟩ := h
      exact ih ⟨sched ++ [(t, c)], by simp [run]⟩ hs
  have hd : ∀ t, ¬ UnderWay s' t := by
    intro t ht
    obtain ⟨u, h1, h2⟩ := C97_every_call hr ht
    exact hs _ ⟨u, .init 0, h1, h2, rfl⟩
  refine ⟨hd, fun m => ?_⟩
  cases hm : s'.owner m with
  | none => rfl
  | some t => exact absurd (C97_holder hr hm) (hd t)

/-- Creating a session waits, with the big lock in hand, for the lock of an expired session in which another call is. -/
example : ∃ s, Reachable s ∧ Waits s 1 ∧ s.owner .big = some 1 ∧ s.owner (.slot 0) = some 0 :=
  ⟨_, ⟨one ++ by' 0 (.get 7 5) 8 ++ by' 1 (.create 1 true (some 8) 1000 100) 20, rfl⟩, ⟨_, _, rfl, by decide +kernel⟩,
    by decide +kernel, by decide +kernel⟩

end Nostr.Session.Races.Props
