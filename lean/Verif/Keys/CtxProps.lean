import Verif.Keys.Ctx

/-! # Property theorems: initialisation from several threads (C125) -/

namespace Nostr.Keys.Ctx.Props
open Nostr Nostr.Keys.Ctx

/-- The lock is held exactly by the thread inside the critical section. -/
def Excl (s : St) : Prop :=
  (∀ i, (s.pc i).inside = true → s.lock = some i) ∧ (∀ i, s.lock = some i → (s.pc i).inside = true)

theorem to_self (s : St) (i : Nat) (p : Pc) : (s.to i p).pc i = p := by simp [St.to]

theorem to_other {s : St} {i j : Nat} {p : Pc} (h : j ≠ i) : (s.to i p).pc j = s.pc j := by simp [St.to, h]

/-- A move that neither takes nor gives back the lock. -/
theorem excl_stay {s s' : St} {i : Nat} {p : Pc} (h : Excl s) (hl : s'.lock = s.lock)
    (hp : ∀ j, s'.pc j = if j = i then p else s.pc j) (hin : p.inside = (s.pc i).inside) : Excl s' := by
  have hi : ∀ j, (s'.pc j).inside = (s.pc j).inside := by
    intro j; rw [hp]; split
    · rename_i e; rw [e, hin]
    · rfl
  exact ⟨fun j hj => by rw [hl]; exact h.1 j (hi j ▸ hj), fun j hj => by rw [hi]; exact h.2 j (hl ▸ hj)⟩

theorem excl_acquire {s s' : St} {i : Nat} {p : Pc} (h : Excl s) (hn : s.lock = none) (hl : s'.lock = some i)
    (hp : ∀ j, s'.pc j = if j = i then p else s.pc j) (hin : p.inside = true) : Excl s' := by
  constructor
  · intro j hj
    rw [hp] at hj
    split at hj
    · rename_i e; rw [hl, e]
    · have := h.1 j hj; rw [hn] at this; simp at this
  · intro j hj
    rw [hl] at hj
    simp only [Option.some.injEq] at hj
    rw [hp, if_pos hj.symm]; exact hin

theorem excl_release {s s' : St} {i : Nat} {p : Pc} (h : Excl s) (hi : (s.pc i).inside = true) (hl : s'.lock = none)
    (hp : ∀ j, s'.pc j = if j = i then p else s.pc j) (hin : p.inside = false) : Excl s' := by
  constructor
  · intro j hj
    rw [hp] at hj
    split at hj
    · rw [hin] at hj; simp at hj
    · rename_i e
      have h1 := h.1 j hj
      rw [h.1 i hi] at h1
      simp only [Option.some.injEq] at h1
      exact absurd h1.symm e
  · intro j hj; rw [hl] at hj; simp at hj

theorem excl_step {clean : Bool} {s t : St} (h : Excl s) (st : Step clean s t) : Excl t := by
  cases st with
  | acquire i u hpc hn => exact excl_acquire h hn rfl (fun _ => rfl) rfl
  | cleanAcquire i hpc hn => exact excl_acquire h hn rfl (fun _ => rfl) rfl
  | leave i u ok hpc =>
    refine excl_release h (by rw [hpc]; rfl) rfl (fun _ => rfl) ?_
    split <;> rfl
  | cleanLeave i hpc => exact excl_release h (by rw [hpc]; rfl) rfl (fun _ => rfl) rfl
  | call i g hpc => exact excl_stay h rfl (fun _ => rfl) (by rw [hpc]; rfl)
  | init i hpc => exact excl_stay h rfl (fun _ => rfl) (by rw [hpc]; rfl)
  | flagSet i hpc _ => exact excl_stay h rfl (fun _ => rfl) (by rw [hpc]; rfl)
  | flagClear i hpc _ => exact excl_stay h rfl (fun _ => rfl) (by rw [hpc]; rfl)
  | pointerSet i hpc _ => exact excl_stay h rfl (fun _ => rfl) (by rw [hpc]; rfl)
  | pointerNull i hpc _ => exact excl_stay h rfl (fun _ => rfl) (by rw [hpc]; rfl)
  | always i hpc => exact excl_stay h rfl (fun _ => rfl) (by rw [hpc]; rfl)
  | never i hpc => exact excl_stay h rfl (fun _ => rfl) (by rw [hpc]; rfl)
  | done i u hpc _ => exact excl_stay h rfl (fun _ => rfl) (by rw [hpc]; rfl)
  | fresh i u hpc _ => exact excl_stay h rfl (fun _ => rfl) (by rw [hpc]; rfl)
  | noContext i u hpc => exact excl_stay (i := i) h rfl (fun _ => rfl) (by rw [hpc]; rfl)
  | context i u hpc => exact excl_stay (i := i) h rfl (fun _ => rfl) (by rw [hpc]; rfl)
  | noEntropy i u hpc => exact excl_stay h rfl (fun _ => rfl) (by rw [hpc]; rfl)
  | entropy i u hpc => exact excl_stay h rfl (fun _ => rfl) (by rw [hpc]; rfl)
  | noSetup i u hpc => exact excl_stay h rfl (fun _ => rfl) (by rw [hpc]; rfl)
  | setup i u hpc => exact excl_stay (i := i) h rfl (fun _ => rfl) (by rw [hpc]; rfl)
  | mark i u hpc => exact excl_stay (i := i) h rfl (fun _ => rfl) (by rw [hpc]; rfl)
  | use i hpc => exact excl_stay h rfl (fun _ => rfl) (by rw [hpc]; rfl)
  | cleanup i _ hpc => exact excl_stay h rfl (fun _ => rfl) (by rw [hpc]; rfl)
  | cleanCtx i hpc => exact excl_stay (i := i) h rfl (fun _ => rfl) (by rw [hpc]; rfl)
  | cleanMark i hpc => exact excl_stay (i := i) h rfl (fun _ => rfl) (by rw [hpc]; rfl)

/-- What a position says about the shared state when nobody cleans up. -/
def Says (s : St) : Pc → Prop
  | .get _ => s.flag = false ∧ s.ctx ≠ .live
  | .draw _ | .setup _ => s.flag = false ∧ s.ctx = .raw
  | .mark _ => s.flag = false ∧ s.ctx = .live
  | .unlock _ true => s.flag = true
  | .cleanWait | .cleanCtx | .cleanMark | .cleanUnlock => False
  | _ => True

/-- The invariant without clean-up. -/
structure Inv (s : St) : Prop where
  excl : Excl s
  says : ∀ i, Says s (s.pc i)
  live : s.ctx = .live → s.flag = true ∨ ∃ i u, s.pc i = .mark u
  flag : s.flag = true → s.ctx = .live
  count : s.setups = if s.ctx = .live then 1 else 0

/-- Another thread's position does not depend on what changes inside the critical section of `i`. -/
theorem says_other {s s' : St} {i j : Nat} (h : Inv s) (hi : (s.pc i).inside = true) (hj : j ≠ i)
    (hf : s.flag = true → s'.flag = true) : Says s' (s.pc j) := by
  have hn : (s.pc j).inside = false := by
    cases e : (s.pc j).inside with
    | false => rfl
    | true =>
      have h1 := h.excl.1 j e
      rw [h.excl.1 i hi] at h1
      simp only [Option.some.injEq] at h1
      exact absurd h1.symm hj
  have hs := h.says j
  revert hn hs
  cases s.pc j <;> simp [Pc.inside, Says]

/-- A move that changes nothing shared but possibly the lock. -/
theorem inv_stay {s s' : St} {i : Nat} {p : Pc} (h : Inv s) (he : Excl s') (hc : s'.ctx = s.ctx) (hf : s'.flag = s.flag)
    (hn : s'.setups = s.setups) (hp : ∀ j, s'.pc j = if j = i then p else s.pc j) (hs : Says s' p)
    (hm : ∀ u, s.pc i ≠ .mark u) : Inv s' := by
  refine ⟨he, ?_, ?_, by rw [hc, hf]; exact h.flag, by rw [hn, hc]; exact h.count⟩
  · intro j
    rw [hp]
    split
    · exact hs
    · have := h.says j
      revert this
      cases s.pc j with
      | unlock u ok => cases ok <;> simp [Says, hf]
      | _ => simp [Says, hc, hf]
  · intro hl
    rcases h.live (hc ▸ hl) with hf' | ⟨j, u, hj⟩
    · left; rw [hf]; exact hf'
    · right
      refine ⟨j, u, ?_⟩
      rw [hp, if_neg]
      · exact hj
      · intro e; rw [e] at hj; exact hm u hj

theorem inv_step {s t : St} (h : Inv s) (st : Step false s t) : Inv t := by
  have he := excl_step h.excl st
  cases st with
  | call i g hpc => exact inv_stay h he rfl rfl rfl (fun _ => rfl) trivial (by simp [hpc])
  | init i hpc => exact inv_stay h he rfl rfl rfl (fun _ => rfl) trivial (by simp [hpc])
  | flagSet i hpc _ => exact inv_stay h he rfl rfl rfl (fun _ => rfl) trivial (by simp [hpc])
  | flagClear i hpc _ => exact inv_stay h he rfl rfl rfl (fun _ => rfl) trivial (by simp [hpc])
  | pointerSet i hpc _ => exact inv_stay h he rfl rfl rfl (fun _ => rfl) trivial (by simp [hpc])
  | pointerNull i hpc _ => exact inv_stay h he rfl rfl rfl (fun _ => rfl) trivial (by simp [hpc])
  | always i hpc => exact inv_stay h he rfl rfl rfl (fun _ => rfl) trivial (by simp [hpc])
  | never i hpc => exact inv_stay h he rfl rfl rfl (fun _ => rfl) trivial (by simp [hpc])
  | acquire i u hpc _ => exact inv_stay (i := i) h he rfl rfl rfl (fun _ => rfl) trivial (by simp [hpc])
  | done i u hpc hf => exact inv_stay h he rfl rfl rfl (fun _ => rfl) hf (by simp [hpc])
  | fresh i u hpc hf =>
    refine inv_stay h he rfl rfl rfl (fun _ => rfl) ⟨hf, ?_⟩ (by simp [hpc])
    intro hl
    rcases h.live hl with hf' | ⟨j, v, hj⟩
    · rw [hf] at hf'; simp at hf'
    · have h1 := h.excl.1 j (by rw [hj]; rfl)
      rw [h.excl.1 i (by rw [hpc]; rfl)] at h1
      simp only [Option.some.injEq] at h1
      rw [← h1, hpc] at hj; simp at hj
  | noContext i u hpc =>
    have hi : (s.pc i).inside = true := by rw [hpc]; rfl
    have hs := h.says i; rw [hpc] at hs
    refine ⟨he, ?_, ?_, ?_, ?_⟩
    · intro j
      by_cases hj : j = i
      · subst hj; rw [to_self]; trivial
      · rw [to_other hj]; exact says_other (s := s) h hi hj (fun x => x)
    · intro hl; simp [St.to] at hl
    · intro hf; exact absurd (show s.flag = true from hf) (by rw [hs.1]; simp)
    · have := h.count; rw [if_neg hs.2] at this
      simpa [St.to] using this
  | context i u hpc =>
    have hi : (s.pc i).inside = true := by rw [hpc]; rfl
    have hs := h.says i; rw [hpc] at hs
    refine ⟨he, ?_, ?_, ?_, ?_⟩
    · intro j
      by_cases hj : j = i
      · subst hj; rw [to_self]; exact ⟨hs.1, rfl⟩
      · rw [to_other hj]; exact says_other (s := s) h hi hj (fun x => x)
    · intro hl; simp [St.to] at hl
    · intro hf; exact absurd (show s.flag = true from hf) (by rw [hs.1]; simp)
    · have := h.count; rw [if_neg hs.2] at this
      simpa [St.to] using this
  | noEntropy i u hpc => exact inv_stay h he rfl rfl rfl (fun _ => rfl) trivial (by simp [hpc])
  | entropy i u hpc =>
    have hs := h.says i; rw [hpc] at hs
    exact inv_stay h he rfl rfl rfl (fun _ => rfl) hs (by simp [hpc])
  | noSetup i u hpc => exact inv_stay h he rfl rfl rfl (fun _ => rfl) trivial (by simp [hpc])
  | setup i u hpc =>
    have hi : (s.pc i).inside = true := by rw [hpc]; rfl
    have hs := h.says i; rw [hpc] at hs
    refine ⟨he, ?_, ?_, ?_, ?_⟩
    · intro j
      by_cases hj : j = i
      · subst hj; rw [to_self]; exact ⟨hs.1, rfl⟩
      · rw [to_other hj]; exact says_other (s := s) h hi hj (fun x => x)
    · intro _; exact .inr ⟨i, u, to_self _ _ _⟩
    · intro _; rfl
    · have := h.count
      rw [hs.2] at this
      simp only [reduceCtorEq, if_false] at this
      simp [St.to, this]
  | mark i u hpc =>
    have hi : (s.pc i).inside = true := by rw [hpc]; rfl
    have hs := h.says i; rw [hpc] at hs
    refine ⟨he, ?_, ?_, ?_, ?_⟩
    · intro j
      by_cases hj : j = i
      · subst hj; rw [to_self]; rfl
      · rw [to_other hj]; exact says_other (s := s) h hi hj (fun _ => rfl)
    · intro _; exact .inl rfl
    · intro _; exact hs.2
    · exact h.count
  | leave i u ok hpc =>
    refine inv_stay (i := i) h he rfl rfl rfl (fun _ => rfl) ?_ (by simp [hpc])
    split <;> trivial
  | use i hpc => exact inv_stay h he rfl rfl rfl (fun _ => rfl) trivial (by simp [hpc])
  | cleanup i hc hpc => simp at hc
  | cleanAcquire i hpc _ => have := h.says i; rw [hpc] at this; exact this.elim
  | cleanCtx i hpc => have := h.says i; rw [hpc] at this; exact this.elim
  | cleanMark i hpc => have := h.says i; rw [hpc] at this; exact this.elim
  | cleanLeave i hpc => have := h.says i; rw [hpc] at this; exact this.elim

theorem inv_start : Inv start :=
  ⟨⟨fun i h => by simp [start, Pc.inside] at h, fun i h => by simp [start] at h⟩, fun _ => trivial,
    fun h => by simp [start] at h, fun h => by simp [start] at h, rfl⟩

theorem reach_inv {s t : St} (h : Inv s) (r : Reach false s t) : Inv t := by
  induction r with
  | refl => exact h
  | step _ st ih => exact inv_step ih st

theorem run_reach {clean gs s t} (r : Run clean gs s t) : Reach clean s t := by
  induction r with
  | refl => exact .refl
  | step _ st _ ih => exact .step ih st

/-- **C125 (once).** However many threads initialise the library or call it for the first time, in whatever
interleaving and with whatever failures: the context is set up at most once while nobody cleans up, and
once the library counts as initialised it has been. -/
theorem C125_once (s : St) (r : Reach false start s) :
    s.setups ≤ 1 ∧ (s.flag = true → s.ctx = .live ∧ s.setups = 1) := by
  have h := reach_inv inv_start r
  have hc := h.count
  refine ⟨by rw [hc]; split <;> omega, fun hf => ⟨h.flag hf, ?_⟩⟩
  rw [hc, if_pos (h.flag hf)]

/-- **C125 (guarded calls).** Without clean-up, a call that tests the flag or always initialises never uses a
context that is not initialised, whatever the other threads do. -/
theorem C125_guarded_partial (s : St) (r : Run false (fun g => g = .flag ∨ g = .always) start s) (i : Nat)
    (hu : s.pc i = .use) : s.ctx = .live := by
  have main : Inv s ∧ ∀ i, s.pc i = .use → s.flag = true := by
    clear hu
    induction r with
    | refl => exact ⟨inv_start, fun i h => by simp [start] at h⟩
    | @step t u r st hg ih =>
      obtain ⟨hi, hu⟩ := ih
      refine ⟨inv_step hi st, ?_⟩
      have hg' : Guards (fun g => g = .flag ∨ g = .always) t := by
        cases r with
        | refl => intro i g h; simp [start] at h
        | step _ _ h => exact h
      intro j hj
      -- the flag is never cleared; only the moving thread can have arrived
      cases st with
      | flagSet k hpc hf => exact hf
      | pointerSet k hpc hc => have := hg' k _ hpc; simp at this
      | never k hpc => have := hg' k _ hpc; simp at this
      | leave k v ok hpc =>
        by_cases hjk : j = k
        · subst hjk
          rw [to_self] at hj
          split at hj
          · rename_i hvo
            simp only [Bool.and_eq_true] at hvo
            have := hi.says j
            rw [hpc, hvo.2] at this
            exact this
          · simp at hj
        · rw [to_other hjk] at hj; exact hu j hj
      | mark k v hpc => rfl
      | cleanMark k hpc => have := hi.says k; rw [hpc] at this; exact this.elim
      | call k g hpc => by_cases hjk : j = k
                        · subst hjk; rw [to_self] at hj; simp at hj
                        · rw [to_other hjk] at hj; exact hu j hj
      | init k hpc => by_cases hjk : j = k
                      · subst hjk; rw [to_self] at hj; simp at hj
                      · rw [to_other hjk] at hj; exact hu j hj
      | flagClear k hpc _ => by_cases hjk : j = k
                             · subst hjk; rw [to_self] at hj; simp at hj
                             · rw [to_other hjk] at hj; exact hu j hj
      | pointerNull k hpc _ => by_cases hjk : j = k
                               · subst hjk; rw [to_self] at hj; simp at hj
                               · rw [to_other hjk] at hj; exact hu j hj
      | always k hpc => by_cases hjk : j = k
                        · subst hjk; rw [to_self] at hj; simp at hj
                        · rw [to_other hjk] at hj; exact hu j hj
      | acquire k v hpc _ => by_cases hjk : j = k
                             · subst hjk; rw [to_self] at hj; simp at hj
                             · rw [to_other hjk] at hj; exact hu j hj
      | done k v hpc _ => by_cases hjk : j = k
                          · subst hjk; rw [to_self] at hj; simp at hj
                          · rw [to_other hjk] at hj; exact hu j hj
      | fresh k v hpc _ => by_cases hjk : j = k
                           · subst hjk; rw [to_self] at hj; simp at hj
                           · rw [to_other hjk] at hj; exact hu j hj
      | noContext k v hpc => by_cases hjk : j = k
                             · subst hjk; rw [to_self] at hj; simp at hj
                             · rw [to_other hjk] at hj; exact hu j hj
      | context k v hpc => by_cases hjk : j = k
                           · subst hjk; rw [to_self] at hj; simp at hj
                           · rw [to_other hjk] at hj; exact hu j hj
      | noEntropy k v hpc => by_cases hjk : j = k
                             · subst hjk; rw [to_self] at hj; simp at hj
                             · rw [to_other hjk] at hj; exact hu j hj
      | entropy k v hpc => by_cases hjk : j = k
                           · subst hjk; rw [to_self] at hj; simp at hj
                           · rw [to_other hjk] at hj; exact hu j hj
      | noSetup k v hpc => by_cases hjk : j = k
                           · subst hjk; rw [to_self] at hj; simp at hj
                           · rw [to_other hjk] at hj; exact hu j hj
      | setup k v hpc => by_cases hjk : j = k
                         · subst hjk; rw [to_self] at hj; simp at hj
                         · rw [to_other hjk] at hj; exact hu j hj
      | use k hpc => by_cases hjk : j = k
                     · subst hjk; rw [to_self] at hj; simp at hj
                     · rw [to_other hjk] at hj; exact hu j hj
      | cleanup k hc hpc => simp at hc
      | cleanAcquire k hpc _ => have := hi.says k; rw [hpc] at this; exact this.elim
      | cleanCtx k hpc => have := hi.says k; rw [hpc] at this; exact this.elim
      | cleanLeave k hpc => have := hi.says k; rw [hpc] at this; exact this.elim
  exact main.1.flag (main.2 i hu)

theorem flag_stays {s t : St} (h : Inv s) (hf : s.flag = true) (st : Step false s t) : t.flag = true := by
  cases st with
  | mark i u hpc => rfl
  | cleanMark i hpc => have := h.says i; rw [hpc] at this; exact this.elim
  | _ => exact hf

/-- **C125 (after initialisation).** Once an initialisation has succeeded, and while nobody cleans up, every
call uses an initialised context, also those that test only the pointer or nothing at all. -/
theorem C125_after_init_partial (s t : St) (r : Reach false start s) (hf : s.flag = true) (r' : Reach false s t) :
    t.ctx = .live := by
  have hs := reach_inv inv_start r
  have main : Inv t ∧ t.flag = true := by
    induction r' with
    | refl => exact ⟨hs, hf⟩
    | step _ st ih => exact ⟨inv_step ih.1 st, flag_stays ih.1 ih.2 st⟩
  exact main.1.flag main.2

/-- A number that falls with every step inside the critical section. -/
def rank : Pc → Nat
  | .test _ => 6
  | .get _ => 5
  | .draw _ => 4
  | .setup _ | .cleanCtx => 3
  | .mark _ | .cleanMark => 2
  | .unlock _ _ | .cleanUnlock => 1
  | _ => 0

/-- Steps of a thread inside the critical section lower its rank, steps of others do not touch it. -/
theorem rank_step {clean : Bool} {s t : St} {i : Nat} (h : (s.pc i).inside = true) (st : Step clean s t) :
    t.pc i = s.pc i ∨ (rank (t.pc i) < rank (s.pc i) ∧ (rank (t.pc i) = 0 → t.lock = none)) := by
  have key : ∀ (s' : St) (k : Nat) (q : Pc), s'.pc = s.pc →
      (k = i → rank q < rank (s.pc i) ∧ (rank q = 0 → s'.lock = none)) →
      (s'.to k q).pc i = s.pc i ∨ (rank ((s'.to k q).pc i) < rank (s.pc i) ∧ (rank ((s'.to k q).pc i) = 0 → (s'.to k q).lock = none)) := by
    intro s' k q hs hk
    by_cases e : i = k
    · subst e; rw [to_self]; exact .inr (hk rfl)
    · rw [to_other e, hs]; exact .inl rfl
  have out : ∀ {k : Nat} {p : Pc}, s.pc k = p → p.inside = false → k ≠ i := by
    intro k p hp hn e; subst e; rw [hp, hn] at h; simp at h
  cases st with
  | call k g hpc => exact key s k _ rfl (fun e => absurd e (out hpc rfl))
  | init k hpc => exact key s k _ rfl (fun e => absurd e (out hpc rfl))
  | flagSet k hpc _ => exact key s k _ rfl (fun e => absurd e (out hpc rfl))
  | flagClear k hpc _ => exact key s k _ rfl (fun e => absurd e (out hpc rfl))
  | pointerSet k hpc _ => exact key s k _ rfl (fun e => absurd e (out hpc rfl))
  | pointerNull k hpc _ => exact key s k _ rfl (fun e => absurd e (out hpc rfl))
  | always k hpc => exact key s k _ rfl (fun e => absurd e (out hpc rfl))
  | never k hpc => exact key s k _ rfl (fun e => absurd e (out hpc rfl))
  | acquire k u hpc _ => exact key { s with lock := some k } k _ rfl (fun e => absurd e (out hpc rfl))
  | use k hpc => exact key s k _ rfl (fun e => absurd e (out hpc rfl))
  | cleanup k _ hpc => exact key s k _ rfl (fun e => absurd e (out hpc rfl))
  | cleanAcquire k hpc _ => exact key { s with lock := some k } k _ rfl (fun e => absurd e (out hpc rfl))
  | done k u hpc _ => exact key s k _ rfl (by rintro rfl; rw [hpc]; simp [rank])
  | fresh k u hpc _ => exact key s k _ rfl (by rintro rfl; rw [hpc]; simp [rank])
  | noContext k u hpc => exact key { s with ctx := .null } k _ rfl (by rintro rfl; rw [hpc]; simp [rank])
  | context k u hpc => exact key { s with ctx := .raw } k _ rfl (by rintro rfl; rw [hpc]; simp [rank])
  | noEntropy k u hpc => exact key s k _ rfl (by rintro rfl; rw [hpc]; simp [rank])
  | entropy k u hpc => exact key s k _ rfl (by rintro rfl; rw [hpc]; simp [rank])
  | noSetup k u hpc => exact key s k _ rfl (by rintro rfl; rw [hpc]; simp [rank])
  | setup k u hpc => exact key { s with ctx := .live, setups := s.setups + 1 } k _ rfl (by rintro rfl; rw [hpc]; simp [rank])
  | mark k u hpc => exact key { s with flag := true } k _ rfl (by rintro rfl; rw [hpc]; simp [rank])
  | leave k u ok hpc =>
    refine key { s with lock := none } k _ rfl ?_
    rintro rfl; rw [hpc]
    refine ⟨?_, fun _ => rfl⟩
    split <;> simp [rank]
  | cleanCtx k hpc => exact key { s with ctx := .null } k _ rfl (by rintro rfl; rw [hpc]; simp [rank])
  | cleanMark k hpc => exact key { s with flag := false } k _ rfl (by rintro rfl; rw [hpc]; simp [rank])
  | cleanLeave k hpc => exact key { s with lock := none } k _ rfl (by rintro rfl; rw [hpc]; simp [rank])

/-- **C125 (no deadlock).** In every reachable state, clean-up included, the thread that holds the lock can go
on without waiting, and whatever it does it gives the lock back after at most six of its steps. -/
theorem C125_progress (clean : Bool) (s : St) (r : Reach clean start s) (i : Nat) (h : s.lock = some i) :
    rank (s.pc i) ≤ 6 ∧ (∃ t, Step clean s t ∧ t.pc i ≠ s.pc i) ∧
    ∀ t, Step clean s t → t.pc i = s.pc i ∨ (rank (t.pc i) < rank (s.pc i) ∧ (rank (t.pc i) = 0 → t.lock = none)) := by
  have he : Excl s := by
    clear h
    induction r with
    | refl => exact inv_start.excl
    | step _ st ih => exact excl_step ih st
  have hin := he.2 i h
  refine ⟨by cases s.pc i <;> simp [rank], ?_, fun t st => rank_step hin st⟩
  cases hp : s.pc i with
  | idle => rw [hp] at hin; simp [Pc.inside] at hin
  | guard g => rw [hp] at hin; simp [Pc.inside] at hin
  | wait u => rw [hp] at hin; simp [Pc.inside] at hin
  | use => rw [hp] at hin; simp [Pc.inside] at hin
  | cleanWait => rw [hp] at hin; simp [Pc.inside] at hin
  | test u =>
    cases hf : s.flag with
    | true => exact ⟨_, .done s i u hp hf, by simp [to_self]⟩
    | false => exact ⟨_, .fresh s i u hp hf, by simp [to_self]⟩
  | get u => exact ⟨_, .context s i u hp, by simp [to_self]⟩
  | draw u => exact ⟨_, .entropy s i u hp, by simp [to_self]⟩
  | setup u => exact ⟨_, .setup s i u hp, by simp [to_self]⟩
  | mark u => exact ⟨_, .mark s i u hp, by simp [to_self]⟩
  | unlock u ok => exact ⟨_, .leave s i u ok hp, by rw [to_self]; split <;> simp⟩
  | cleanCtx => exact ⟨_, .cleanCtx s i hp, by simp [to_self]⟩
  | cleanMark => exact ⟨_, .cleanMark s i hp, by simp [to_self]⟩
  | cleanUnlock => exact ⟨_, .cleanLeave s i hp, by simp [to_self]⟩

/-- **C125 refuted (pointer).** After an initialisation that failed for lack of entropy, a call that tests only
the pointer (signing, verification, NIP-44) uses a context that was never initialised. One thread is
enough. -/
theorem C125_pointer_refuted : ∃ s, Run false (fun g => g = .pointer) start s ∧ s.pc 0 = .use ∧ s.ctx = .raw ∧ s.setups = 0 := by
  have ng : ∀ {s : St}, (∀ i g, s.pc i = .guard g → g = .pointer) → Guards (fun g => g = .pointer) s :=
    fun h i g e => h i g e
  refine ⟨_, .step (.step (.step (.step (.step (.step (.step (.step .refl
    (.init _ 0 rfl) ?_) (.acquire _ 0 false rfl rfl) ?_) (.fresh _ 0 false rfl rfl) ?_)
    (.context _ 0 false rfl) ?_) (.noEntropy _ 0 false rfl) ?_) (.leave _ 0 false false rfl) ?_) (.call _ 0 .pointer rfl) ?_)
    (.pointerSet _ 0 rfl (by simp [St.to])) ?_, rfl, rfl, rfl⟩
  all_goals
    refine ng fun i g h => ?_
    simp only [St.to, start] at h
    by_cases hi : i = 0 <;> simp [hi] at h
    try exact h.symm

/-- **C125 refuted (clean-up).** A call that has tested the flag can be overtaken by a clean-up in another
thread and then uses NULL, although all of these functions are documented as safe to call from several
threads. -/
theorem C125_cleanup_refuted : ∃ s, Reach true start s ∧ s.pc 0 = .use ∧ s.ctx = .null := by
  refine ⟨_, .step (.step (.step (.step (.step (.step (.step (.step (.step (.step (.step (.step (.step .refl
    (.init _ 0 rfl)) (.acquire _ 0 false rfl rfl)) (.fresh _ 0 false rfl rfl)) (.context _ 0 false rfl))
    (.entropy _ 0 false rfl)) (.setup _ 0 false rfl)) (.mark _ 0 false rfl)) (.leave _ 0 false true rfl))
    (.call _ 0 .flag rfl)) (.flagSet _ 0 rfl rfl))
    (.cleanup _ 1 rfl rfl)) (.cleanAcquire _ 1 rfl rfl)) (.cleanCtx _ 1 rfl), rfl, rfl⟩

/-- The hypotheses of the positive theorems are met: an initialisation followed by an unguarded call; a first
call that initialises and uses the context. -/
example : ∃ s t, Reach false start s ∧ s.flag = true ∧ Reach false s t ∧ t.pc 0 = .use := by
  refine ⟨_, _, .step (.step (.step (.step (.step (.step (.step (.step .refl
    (.init _ 0 rfl)) (.acquire _ 0 false rfl rfl)) (.fresh _ 0 false rfl rfl)) (.context _ 0 false rfl))
    (.entropy _ 0 false rfl)) (.setup _ 0 false rfl)) (.mark _ 0 false rfl)) (.leave _ 0 false true rfl), rfl,
    .step (.step .refl (.call _ 0 .never rfl)) (.never _ 0 rfl), rfl⟩

example : ∃ s, Run false (fun g => g = .flag ∨ g = .always) start s ∧ s.pc 0 = .use := by
  have ng : ∀ {s : St}, (∀ i g, s.pc i ≠ .guard g) → Guards (fun g => g = .flag ∨ g = .always) s :=
    fun h i g e => absurd e (h i g)
  refine ⟨_, .step (.step (.step (.step (.step (.step (.step (.step (.step .refl
    (.call _ 0 .flag rfl) ?_) (.flagClear _ 0 rfl rfl) ?_) (.acquire _ 0 true rfl rfl) ?_) (.fresh _ 0 true rfl rfl) ?_)
    (.context _ 0 true rfl) ?_) (.entropy _ 0 true rfl) ?_) (.setup _ 0 true rfl) ?_) (.mark _ 0 true rfl) ?_)
    (.leave _ 0 true true rfl) ?_, rfl⟩
  · intro i g h
    by_cases hi : i = 0
    · subst hi; rw [to_self] at h; left; simpa using h.symm
    · rw [to_other hi] at h; simp [start] at h
  all_goals
    refine ng fun i g h => ?_
    simp only [St.to, start] at h
    by_cases hi : i = 0 <;> simp [hi] at h

/-- The lock is held in a reachable state. -/
example : ∃ s, Reach true start s ∧ s.lock = some 0 :=
  ⟨_, .step (.step .refl (.init _ 0 rfl)) (.acquire _ 0 false rfl rfl), rfl⟩

end Nostr.Keys.Ctx.Props
