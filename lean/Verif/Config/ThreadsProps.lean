import Verif.Config.ThreadsSpec
import Verif.Config.Props

/-! # Property theorems: C186 (the configuration used by several threads) -/

namespace Nostr.Config.Threads.Props
open Nostr Nostr.Config Nostr.Config.Spec Nostr.Config.Threads Nostr.Config.Threads.Spec

/-- The first `k` fields of `src`, the others of `dst`. -/
def mix (k : Nat) (src dst : Config) : Config where
  nip44Min := if 0 < k then src.nip44Min else dst.nip44Min
  nip44Max := if 1 < k then src.nip44Max else dst.nip44Max
  maxSessions := if 2 < k then src.maxSessions else dst.maxSessions
  sessionTimeout := if 3 < k then src.sessionTimeout else dst.sessionTimeout
  maxPermissions := if 4 < k then src.maxPermissions else dst.maxPermissions
  maxContent := if 5 < k then src.maxContent else dst.maxContent
  maxTags := if 6 < k then src.maxTags else dst.maxTags
  maxTagValues := if 7 < k then src.maxTagValues else dst.maxTagValues
  connectTimeout := if 8 < k then src.connectTimeout else dst.connectTimeout
  responseTimeout := if 9 < k then src.responseTimeout else dst.responseTimeout
  encryptionNip := if 10 < k then src.encryptionNip else dst.encryptionNip
  memoryLock := if 11 < k then src.memoryLock else dst.memoryLock
  debugMode := if 12 < k then src.debugMode else dst.debugMode

theorem mix_zero (a b : Config) : mix 0 a b = b := rfl

theorem mix_all {k : Nat} (h : ¬ k < 13) (hk : k ≤ 13) (a b : Config) : mix k a b = a := by
  obtain rfl : k = 13 := by omega
  rfl

theorem put_mix {k : Nat} (h : k < 13) (a b : Config) : put k a (mix k a b) = mix (k + 1) a b := by
  match k, h with
  | 0, _ | 1, _ | 2, _ | 3, _ | 4, _ | 5, _ | 6, _ | 7, _ | 8, _ | 9, _ | 10, _ | 11, _ | 12, _ => rfl

/-- Reading the environment changes each setting by itself. -/
theorem put_env {k : Nat} (h : k < 13) (env : Env) (d : Config) :
    put k (loadEnv env (mix k (loadEnv env d) d)) (mix k (loadEnv env d) d) = mix (k + 1) (loadEnv env d) d := by
  match k, h with
  | 0, _ | 1, _ | 2, _ | 3, _ | 4, _ | 5, _ | 6, _ | 7, _ | 8, _ | 9, _ | 10, _ | 11, _ | 12, _ => rfl

/-- The state after the calls that have returned. -/
def after (s : Option Config × Bool) (l : List (Nat × Op × Ans)) : Option Config × Bool := l.foldl (fun s x => (answer s x.2.1).1) s

theorem oneByOne_snoc {s : Option Config × Bool} {l : List (Nat × Op × Ans)} {t : Nat} {o : Op} {a : Ans} (h : OneByOne s l)
    (ha : (answer (after s l) o).2 = a) : OneByOne s (l ++ [(t, o, a)]) := by
  induction l generalizing s with
  | nil => exact ⟨ha, trivial⟩
  | cons x l ih => exact ⟨h.1, ih h.2 ha⟩

theorem after_snoc {s : Option Config × Bool} {l : List (Nat × Op × Ans)} {t : Nat} {o : Op} {a : Ans} :
    after s (l ++ [(t, o, a)]) = (answer (after s l) o).1 := by
  simp [after, List.foldl_append]

/-- The shared variables hold this state. -/
def Holds (s : Sys) (st : Option Config × Bool) : Prop :=
  s.init = st.1.isSome ∧ (∀ c, st.1 = some c → s.g = c) ∧ s.cb = st.2

/-- What is true of the thread that has the lock; `st` is the state after the calls that have returned. -/
def InPc (s : Sys) (st : Option Config × Bool) (t : Nat) : Pc → Prop
  | .idle | .ask _ => False
  | .enter _ => Holds s st
  | .reading k => Holds s st ∧ s.init = true ∧ k ≤ 13 ∧ ∃ x, s.tls t = mix k s.g x
  | .old k c b => Holds s st ∧ s.init = true ∧ k ≤ 13 ∧ InRange c ∧ ∃ x, b = mix k s.g x
  | .writing k c b => st.1 = some b ∧ s.init = true ∧ s.cb = st.2 ∧ k ≤ 13 ∧ InRange c ∧ s.g = mix k c b
  | .first k c _ _ => st.1 = none ∧ s.init = false ∧ s.cb = st.2 ∧ k ≤ 13 ∧ InRange c ∧ ∃ x, s.g = mix k c x
  | .dflt k _ _ => st.1 = none ∧ s.init = false ∧ s.cb = st.2 ∧ k ≤ 13 ∧ ∃ x, s.g = mix k defaults x
  | .environ k env _ => st.1 = none ∧ s.init = false ∧ s.cb = st.2 ∧ k ≤ 13 ∧ s.g = mix k (loadEnv env defaults) defaults
  | .leave o a => (answer st o).2 = a ∧ Holds s (answer st o).1

/-- What is true at every moment in a build with threads. -/
def Inv (s : Sys) : Prop :=
  OneByOne (none, false) s.done ∧
  (s.lock = none → Holds s (after (none, false) s.done) ∧ ∀ t, ¬ Inside (s.pc t)) ∧
  (∀ t, s.lock = some t → InPc s (after (none, false) s.done) t (s.pc t) ∧ ∀ u, u ≠ t → ¬ Inside (s.pc u))

theorem inside_of {s : Sys} {st : Option Config × Bool} {t : Nat} {p : Pc} (h : InPc s st t p) : Inside p := by
  cases p <;> first | exact h | exact trivial

theorem start_inv (c : Config) : Inv (start c) :=
  ⟨trivial, fun _ => ⟨⟨rfl, fun _ h => (by cases h), rfl⟩, fun _ h => h⟩, fun _ h => by cases h⟩

/-- A step of the thread that has the lock, which keeps it. -/
theorem keep {s s' : Sys} {t : Nat} {p : Pc} (hl : s.lock = some t) (h : Inv s) (hl' : s'.lock = s.lock) (hd : s'.done = s.done)
    (hpc : s'.pc = s.pc) (hp : InPc s' (after (none, false) s.done) t p) (htl : True := trivial) : Inv (s'.at t p) := by
  refine ⟨by simpa [Sys.at, hd] using h.1, fun hn => ?_, fun u hu => ?_⟩
  · simp only [Sys.at] at hn
    rw [hl', hl] at hn
    cases hn
  · simp only [Sys.at] at hu
    rw [hl', hl, Option.some.injEq] at hu
    subst hu
    refine ⟨?_, fun u hu => ?_⟩
    · simp only [Sys.at, if_true, hd]
      cases p <;> exact hp
    · simp only [Sys.at, if_neg hu, hpc]
      exact (h.2.2 t hl).2 u hu

theorem validate_cases (c : Config) : (InRange c ∧ validate c = .ok ()) ∨ (¬ InRange c ∧ validate c = .err .invalidParam) := by
  have hv := validate_or c
  by_cases h : InRange c
  · exact Or.inl ⟨h, (validate_ok c).2 h⟩
  · exact Or.inr ⟨h, hv.resolve_left fun he => h ((validate_ok c).1 he)⟩

theorem step_inv {s : Sys} (h : Inv s) (t : Nat) (o : Op) : Inv (step true s t o) := by
  obtain ⟨h1, h2, h3⟩ := h
  by_cases hin : Inside (s.pc t)
  · -- only the thread with the lock is inside
    have hl : s.lock = some t := by
      cases hk : s.lock with
      | none => exact absurd hin ((h2 hk).2 t)
      | some u =>
        by_cases hu : t = u
        · rw [hu]
        · exact absurd hin ((h3 u hk).2 t hu)
    have hp := (h3 t hl).1
    have hi : Inv s := ⟨h1, h2, h3⟩
    generalize hst : after (none, false) s.done = st at hp
    unfold step
    cases hpc : s.pc t with
    | idle => rw [hpc] at hin; exact absurd hin id
    | ask o => rw [hpc] at hin; exact absurd hin id
    | enter o =>
      rw [hpc] at hp
      obtain ⟨g1, g2, g3⟩ := hp
      cases o with
      | get =>
        simp only
        by_cases hn : s.init = true
        · rw [if_pos hn]
          exact keep hl hi rfl rfl rfl ⟨by rw [hst]; exact ⟨g1, g2, g3⟩, hn, by omega, s.tls t, (mix_zero _ _).symm⟩
        · rw [if_neg hn]
          refine keep hl hi rfl rfl rfl ?_
          rw [hst]
          have : st.1 = none := by
            cases hs : st.1 with
            | none => rfl
            | some c => rw [hs] at g1; exact absurd g1 hn
          exact ⟨by simp [answer, this], g1, g2, g3⟩
      | setCallback b =>
        refine keep hl hi rfl rfl rfl ?_
        rw [hst]
        exact ⟨rfl, g1, g2, rfl⟩
      | update c =>
        simp only
        by_cases hn : s.init = true
        · rw [if_pos hn]
          obtain ⟨x, hx⟩ : ∃ x, st.1 = some x := by
            cases hs : st.1 with
            | none => rw [hs] at g1; rw [hn] at g1; cases g1
            | some c => exact ⟨c, rfl⟩
          rcases validate_cases c with ⟨hr, hv⟩ | ⟨hr, hv⟩
          · rw [hv]
            exact keep hl hi rfl rfl rfl ⟨by rw [hst]; exact ⟨g1, g2, g3⟩, hn, by omega, hr, s.g, (mix_zero _ _).symm⟩
          · rw [hv]
            refine keep hl hi rfl rfl rfl ?_
            rw [hst]
            refine ⟨by simp [answer, hx, hr], ?_⟩
            have : (answer st (.update c)).1 = st := by simp [answer, hx, hr]
            rw [this]
            exact ⟨g1, g2, g3⟩
        · rw [if_neg hn]
          refine keep hl hi rfl rfl rfl ?_
          rw [hst]
          have : st.1 = none := by
            cases hs : st.1 with
            | none => rfl
            | some c => rw [hs] at g1; exact absurd g1 hn
          refine ⟨by simp [answer, this], ?_⟩
          have : (answer st (.update c)).1 = st := by simp [answer, this]
          rw [this]
          exact ⟨g1, g2, g3⟩
      | init c env n =>
        simp only
        by_cases hn : s.init = true
        · rw [if_pos hn]
          obtain ⟨x, hx⟩ : ∃ x, st.1 = some x := by
            cases hs : st.1 with
            | none => rw [hs] at g1; rw [hn] at g1; cases g1
            | some c => exact ⟨c, rfl⟩
          refine keep hl hi rfl rfl rfl ?_
          rw [hst]
          refine ⟨by simp [answer, hx], ?_⟩
          have : (answer st (.init c env n)).1 = st := by simp [answer, hx]
          rw [this]
          exact ⟨g1, g2, g3⟩
        · rw [if_neg hn]
          have hx : st.1 = none := by
            cases hs : st.1 with
            | none => rfl
            | some c => rw [hs] at g1; exact absurd g1 hn
          have hn' : s.init = false := by simpa using hn
          cases c with
          | none => exact keep hl hi rfl rfl rfl ⟨by rw [hst]; exact hx, hn', by rw [hst]; exact g3, by omega, s.g, (mix_zero _ _).symm⟩
          | some c =>
            simp only
            rcases validate_cases c with ⟨hr, hv⟩ | ⟨hr, hv⟩
            · rw [hv]
              exact keep hl hi rfl rfl rfl ⟨by rw [hst]; exact hx, hn', by rw [hst]; exact g3, by omega, hr, s.g, (mix_zero _ _).symm⟩
            · rw [hv]
              refine keep hl hi rfl rfl rfl ?_
              rw [hst]
              refine ⟨by simp [answer, hx, hr], ?_⟩
              have : (answer st (.init (some c) env n)).1 = st := by simp [answer, hx, hr]
              rw [this]
              exact ⟨g1, g2, g3⟩
    | reading k =>
      rw [hpc] at hp
      obtain ⟨⟨g1, g2, g3⟩, hn, hk, x, hx⟩ := hp
      simp only
      by_cases hk' : k < 13
      · rw [if_pos hk']
        refine keep hl hi rfl rfl rfl ?_
        rw [hst]
        refine ⟨⟨g1, g2, g3⟩, hn, by omega, x, ?_⟩
        simp only [if_true]
        rw [hx, put_mix hk']
      · rw [if_neg hk']
        refine keep hl hi rfl rfl rfl ?_
        rw [hst]
        obtain ⟨y, hy⟩ : ∃ x, st.1 = some x := by
          cases hs : st.1 with
          | none => rw [hs] at g1; rw [hn] at g1; cases g1
          | some c => exact ⟨c, rfl⟩
        refine ⟨?_, g1, g2, g3⟩
        rw [hx, mix_all hk' hk, g2 y hy, ← hy]
        rfl
    | old k c b =>
      rw [hpc] at hp
      obtain ⟨⟨g1, g2, g3⟩, hn, hk, hr, x, hx⟩ := hp
      simp only
      by_cases hk' : k < 13
      · rw [if_pos hk']
        refine keep hl hi rfl rfl rfl ?_
        rw [hst]
        exact ⟨⟨g1, g2, g3⟩, hn, by omega, hr, x, by rw [hx, put_mix hk']⟩
      · rw [if_neg hk']
        refine keep hl hi rfl rfl rfl ?_
        rw [hst]
        obtain ⟨y, hy⟩ : ∃ x, st.1 = some x := by
          cases hs : st.1 with
          | none => rw [hs] at g1; rw [hn] at g1; cases g1
          | some c => exact ⟨c, rfl⟩
        have hb : b = s.g := by rw [hx, mix_all hk' hk]
        exact ⟨by rw [hb, g2 y hy, hy], hn, g3, by omega, hr, by rw [hb, mix_zero]⟩
    | writing k c b =>
      rw [hpc] at hp
      obtain ⟨g1, hn, g3, hk, hr, hx⟩ := hp
      simp only
      by_cases hk' : k < 13
      · rw [if_pos hk']
        refine keep hl hi rfl rfl rfl ?_
        rw [hst]
        exact ⟨g1, hn, g3, by omega, hr, by simp only; rw [hx, put_mix hk']⟩
      · rw [if_neg hk']
        refine keep hl hi rfl rfl rfl ?_
        rw [hst]
        have hg : s.g = c := by rw [hx, mix_all hk' hk]
        have ha : answer st (.update c) = ((some c, st.2), .code (.ok ()) (if st.2 then some (b, c) else none)) := by
          simp [answer, g1, hr]
        refine ⟨by rw [ha, hg, g3], ?_⟩
        rw [ha]
        exact ⟨hn, fun d hd => by simp only [Option.some.injEq] at hd; rw [← hd]; exact hg, g3⟩
    | first k c env n =>
      rw [hpc] at hp
      obtain ⟨g1, hn, g3, hk, hr, x, hx⟩ := hp
      simp only
      by_cases hk' : k < 13
      · rw [if_pos hk']
        refine keep hl hi rfl rfl rfl ?_
        rw [hst]
        exact ⟨g1, hn, g3, by omega, hr, x, by simp only; rw [hx, put_mix hk']⟩
      · rw [if_neg hk']
        refine keep hl hi rfl rfl rfl ?_
        rw [hst]
        have hg : s.g = c := by rw [hx, mix_all hk' hk]
        have ha : answer st (.init (some c) env n) = ((some c, st.2), .code n none) := by
          simp [answer, g1, hr]
        refine ⟨by rw [ha], ?_⟩
        rw [ha]
        exact ⟨rfl, fun d hd => by simp only [Option.some.injEq] at hd; rw [← hd]; exact hg, g3⟩
    | dflt k env n =>
      rw [hpc] at hp
      obtain ⟨g1, hn, g3, hk, x, hx⟩ := hp
      simp only
      by_cases hk' : k < 13
      · rw [if_pos hk']
        refine keep hl hi rfl rfl rfl ?_
        rw [hst]
        exact ⟨g1, hn, g3, by omega, x, by simp only; rw [hx, put_mix hk']⟩
      · rw [if_neg hk']
        refine keep hl hi rfl rfl rfl ?_
        rw [hst]
        exact ⟨g1, hn, g3, by omega, by rw [hx, mix_all hk' hk, mix_zero]⟩
    | environ k env n =>
      rw [hpc] at hp
      obtain ⟨g1, hn, g3, hk, hx⟩ := hp
      simp only
      by_cases hk' : k < 13
      · rw [if_pos hk']
        refine keep hl hi rfl rfl rfl ?_
        rw [hst]
        exact ⟨g1, hn, g3, by omega, by simp only; rw [hx, put_env hk']⟩
      · rw [if_neg hk']
        have hg : s.g = loadEnv env defaults := by rw [hx, mix_all hk' hk]
        rcases validate_cases s.g with ⟨hr, hv⟩ | ⟨hr, hv⟩
        · rw [hv]
          refine keep hl hi rfl rfl rfl ?_
          rw [hst]
          rw [hg] at hr
          have ha : answer st (.init none env n) = ((some (loadEnv env defaults), st.2), .code n none) := by
            simp [answer, g1, hr]
          refine ⟨by rw [ha], ?_⟩
          rw [ha]
          exact ⟨rfl, fun d hd => by simp only [Option.some.injEq] at hd; rw [← hd]; exact hg, g3⟩
        · rw [hv]
          refine keep hl hi rfl rfl rfl ?_
          rw [hst]
          rw [hg] at hr
          have ha : answer st (.init none env n) = (st, .code (.err .invalidParam) none) := by
            simp [answer, g1, hr]
          refine ⟨by rw [ha], ?_⟩
          rw [ha]
          exact ⟨by rw [hn, g1]; rfl, fun d hd => (by rw [g1] at hd; cases hd), g3⟩
    | leave o a =>
      rw [hpc] at hp
      obtain ⟨ha, hh⟩ := hp
      refine ⟨?_, fun _ => ⟨?_, ?_⟩, fun u hu => by cases hu⟩
      · exact oneByOne_snoc h1 (by rw [hst]; exact ha)
      · show Holds _ (after (none, false) (s.done ++ [(t, o, a)]))
        rw [after_snoc, hst]
        exact hh
      · intro u
        simp only [Sys.at]
        by_cases hu : u = t
        · rw [if_pos hu]; exact id
        · rw [if_neg hu]; exact (h3 t hl).2 u hu
  · -- a thread outside: it calls, or takes the lock if that is free
    have other : ∀ p, ¬ Inside p → Inv (s.at t p) := by
      intro p hp
      refine ⟨h1, fun hn => ⟨(h2 hn).1, fun u => ?_⟩, fun u hu => ⟨?_, fun v hv => ?_⟩⟩
      · simp only [Sys.at]
        by_cases hu : u = t
        · rw [if_pos hu]; exact hp
        · rw [if_neg hu]; exact (h2 hn).2 u
      · have hne : u ≠ t := by
          rintro rfl
          exact hin (inside_of (h3 u hu).1)
        simp only [Sys.at, if_neg hne]
        have := (h3 u hu).1
        revert this
        cases s.pc u <;> exact id
      · simp only [Sys.at]
        by_cases hvt : v = t
        · rw [if_pos hvt]; exact hp
        · rw [if_neg hvt]; exact (h3 u hu).2 v hv
    unfold step
    cases hpc : s.pc t with
    | idle => exact other _ id
    | ask o =>
      simp only [if_true]
      by_cases hk : s.lock.isSome = true
      · rw [if_pos hk]; exact ⟨h1, h2, h3⟩
      · rw [if_neg hk]
        have hn : s.lock = none := by simpa using hk
        refine ⟨h1, fun hc => (by cases hc), fun u hu => ?_⟩
        simp only [Sys.at, Option.some.injEq] at hu
        subst hu
        refine ⟨?_, fun v hv => ?_⟩
        · simp only [Sys.at, if_true]
          exact (h2 hn).1
        · simp only [Sys.at, if_neg hv]
          exact (h2 hn).2 v
    | enter _ => rw [hpc] at hin; exact absurd trivial hin
    | reading _ => rw [hpc] at hin; exact absurd trivial hin
    | old _ _ _ => rw [hpc] at hin; exact absurd trivial hin
    | writing _ _ _ => rw [hpc] at hin; exact absurd trivial hin
    | first _ _ _ _ => rw [hpc] at hin; exact absurd trivial hin
    | dflt _ _ _ => rw [hpc] at hin; exact absurd trivial hin
    | environ _ _ _ => rw [hpc] at hin; exact absurd trivial hin
    | leave _ _ => rw [hpc] at hin; exact absurd trivial hin

theorem run_inv (c : Config) (sched : List (Nat × Op)) : Inv (run true (start c) sched) := by
  unfold run
  generalize hs : start c = s
  have h : Inv s := hs ▸ start_inv c
  clear hs
  induction sched generalizing s with
  | nil => exact h
  | cons x l ih => exact ih _ (step_inv h _ _)

/-- **C186 (answers).** In a build with threads, whatever the schedule and the calls: the answers of the calls that have returned are
those of the same calls made one after the other, in the order in which they returned. So every configuration that is handed out was in
force as a whole, and a callback is told exactly the configuration before and after the update. Missing: builds without threads
(`C186_mixed_refuted`), and callers that keep the pointer (`C186_pointer_refuted`). -/
theorem C186_answers_partial (c : Config) (sched : List (Nat × Op)) : OneByOne (none, false) (run true (start c) sched).done :=
  (run_inv c sched).1

theorem after_inRange {s : Option Config × Bool} (hs : ∀ c, s.1 = some c → InRange c) (o : Op) :
    ∀ c, (answer s o).1.1 = some c → InRange c := by
  intro c hc
  cases o with
  | get => exact hs c hc
  | setCallback b => exact hs c hc
  | update d =>
    cases hx : s.1 with
    | none => simp only [answer, hx] at hc; exact absurd hc (by simp)
    | some x =>
      by_cases hr : InRange d
      · simp only [answer, hx, if_pos hr, Option.some.injEq] at hc; rw [← hc]; exact hr
      · simp only [answer, hx, if_neg hr] at hc; exact hs c (by rw [hx]; exact hc)
  | init d env n =>
    cases hx : s.1 with
    | some x => simp only [answer, hx] at hc; exact hs c (by rw [hx]; exact hc)
    | none =>
      by_cases hr : InRange (d.getD (loadEnv env defaults))
      · simp only [answer, hx, if_pos hr, Option.some.injEq] at hc; rw [← hc]; exact hr
      · simp only [answer, hx, if_neg hr] at hc; exact absurd hc (by simp)

/-- **C186 (ranges).** In a build with threads every configuration handed out to any thread satisfies every documented range. -/
theorem C186_inRange_partial (c : Config) (sched : List (Nat × Op)) {t : Nat} {o : Op} {d : Config}
    (h : (t, o, Ans.got (some d)) ∈ (run true (start c) sched).done) : InRange d := by
  have h0 := C186_answers_partial c sched
  generalize (run true (start c) sched).done = l at h h0
  have hs : ∀ c, (none, false).1 = some c → InRange c := by intro c hc; cases hc
  generalize ((none, false) : Option Config × Bool) = s at h0 hs
  induction l generalizing s with
  | nil => cases h
  | cons x l ih =>
    obtain ⟨u, p, a⟩ := x
    obtain ⟨k1, k2⟩ := h0
    rcases List.mem_cons.1 h with he | he
    · simp only [Prod.mk.injEq] at he
      obtain ⟨-, rfl, rfl⟩ := he
      cases o with
      | get => simp only [answer, Ans.got.injEq] at k1; exact hs d k1
      | setCallback b => simp only [answer] at k1; cases k1
      | update e =>
        cases hx : s.1 with
        | none => simp only [answer, hx] at k1; cases k1
        | some x => by_cases hr : InRange e <;> simp only [answer, hx, hr, if_true, if_false] at k1 <;> cases k1
      | init e env n =>
        cases hx : s.1 with
        | some x => simp only [answer, hx] at k1; cases k1
        | none => by_cases hr : InRange (e.getD (loadEnv env defaults)) <;> simp only [answer, hx, hr, if_true, if_false] at k1 <;> cases k1
    · exact ih he _ k2 (after_inRange hs _)

/-- **C186 (no race).** In a build with threads two threads never use the shared variables at the same time. -/
theorem C186_exclusive_partial (c : Config) (sched : List (Nat × Op)) {t u : Nat}
    (ht : Inside ((run true (start c) sched).pc t)) (hu : Inside ((run true (start c) sched).pc u)) : t = u := by
  obtain ⟨-, h2, h3⟩ := run_inv c sched
  cases hk : (run true (start c) sched).lock with
  | none => exact absurd ht ((h2 hk).2 t)
  | some v =>
    have k : ∀ w, Inside ((run true (start c) sched).pc w) → w = v := by
      intro w hw
      by_cases hv : w = v
      · exact hv
      · exact absurd hw ((h3 v hk).2 w hv)
    rw [k t ht, k u hu]

/-- The most steps to the return. -/
def rest : Pc → Nat
  | .idle | .ask _ => 0
  | .enter _ => 31
  | .reading k | .writing k _ _ | .first k _ _ _ | .environ k _ _ => 15 - k
  | .old k _ _ | .dflt k _ _ => 30 - k
  | .leave _ _ => 1

theorem rest_step {s : Sys} {t : Nat} (hl : s.lock = some t) (h : InPc s (after (none, false) s.done) t (s.pc t)) (o : Op) :
    (step true s t o).lock = none ∨ ((step true s t o).lock = some t ∧ rest ((step true s t o).pc t) < rest (s.pc t)) := by
  unfold step
  cases hpc : s.pc t with
  | idle => rw [hpc] at h; exact h.elim
  | ask o => rw [hpc] at h; exact h.elim
  | enter o =>
    refine Or.inr ?_
    cases o with
    | get => simp only; split <;> exact ⟨hl, by simp [Sys.at, rest]⟩
    | setCallback b => exact ⟨hl, by simp [Sys.at, rest]⟩
    | update c =>
      simp only
      rcases validate_or c with hv | hv <;> rw [hv] <;> split <;> exact ⟨hl, by simp [Sys.at, rest]⟩
    | init c env n =>
      simp only
      cases c with
      | none => split <;> exact ⟨hl, by simp [Sys.at, rest]⟩
      | some c =>
        simp only
        rcases validate_or c with hv | hv <;> rw [hv] <;> split <;> exact ⟨hl, by simp [Sys.at, rest]⟩
  | reading k =>
    rw [hpc] at h
    refine Or.inr ?_
    simp only
    split
    · exact ⟨hl, by simp only [Sys.at, if_true, rest]; omega⟩
    · have := h.2.2.1
      exact ⟨hl, by simp only [Sys.at, if_true, rest]; omega⟩
  | old k c x =>
    rw [hpc] at h
    refine Or.inr ?_
    simp only
    split
    · exact ⟨hl, by simp only [Sys.at, if_true, rest]; omega⟩
    · have := h.2.2.1
      exact ⟨hl, by simp only [Sys.at, if_true, rest]; omega⟩
  | writing k c x =>
    rw [hpc] at h
    refine Or.inr ?_
    simp only
    split
    · exact ⟨hl, by simp only [Sys.at, if_true, rest]; omega⟩
    · have := h.2.2.2.1
      exact ⟨hl, by simp only [Sys.at, if_true, rest]; omega⟩
  | first k c env n =>
    rw [hpc] at h
    refine Or.inr ?_
    simp only
    split
    · exact ⟨hl, by simp only [Sys.at, if_true, rest]; omega⟩
    · have := h.2.2.2.1
      exact ⟨hl, by simp only [Sys.at, if_true, rest]; omega⟩
  | dflt k env n =>
    rw [hpc] at h
    refine Or.inr ?_
    simp only
    split
    · exact ⟨hl, by simp only [Sys.at, if_true, rest]; omega⟩
    · have := h.2.2.2.1
      exact ⟨hl, by simp only [Sys.at, if_true, rest]; omega⟩
  | environ k env n =>
    rw [hpc] at h
    refine Or.inr ?_
    simp only
    split
    · exact ⟨hl, by simp only [Sys.at, if_true, rest]; omega⟩
    · have := h.2.2.2.1
      rcases validate_or s.g with hv | hv <;> rw [hv] <;> exact ⟨hl, by simp only [Sys.at, if_true, rest]; omega⟩
  | leave o a => exact Or.inl rfl

/-- **C186 (nobody waits forever).** In a build with threads, at every moment the thread that has the lock, if any, gives it back after
at most 31 steps of its own. -/
theorem C186_returns_partial (c : Config) (sched : List (Nat × Op)) (o : Op) {t : Nat} (h : (run true (start c) sched).lock = some t) :
    ∃ n, n ≤ 31 ∧ (run true (run true (start c) sched) (List.replicate n (t, o))).lock = none := by
  have hi := run_inv c sched
  generalize run true (start c) sched = s at h hi
  have key : ∀ (m : Nat) (s : Sys), Inv s → s.lock = some t → rest (s.pc t) ≤ m →
      ∃ n, n ≤ m ∧ (run true s (List.replicate n (t, o))).lock = none := by
    intro m
    induction m with
    | zero =>
      intro s hi h hm
      rcases rest_step h (hi.2.2 t h).1 o with hr | ⟨-, hr⟩
      · have := (hi.2.2 t h).1
        revert this hm
        cases s.pc t with
        | idle => intro _ hh; exact hh.elim
        | ask _ => intro _ hh; exact hh.elim
        | enter _ => intro hm; simp [rest] at hm
        | reading k => intro hm hh; have := hh.2.2.1; simp only [rest] at hm; omega
        | old k c x => intro hm hh; have := hh.2.2.1; simp only [rest] at hm; omega
        | writing k c x => intro hm hh; have := hh.2.2.2.1; simp only [rest] at hm; omega
        | first k c x n => intro hm hh; have := hh.2.2.2.1; simp only [rest] at hm; omega
        | dflt k c x => intro hm hh; have := hh.2.2.2.1; simp only [rest] at hm; omega
        | environ k c x => intro hm hh; have := hh.2.2.2.1; simp only [rest] at hm; omega
        | leave _ _ => intro hm; simp [rest] at hm
      · omega
    | succ m ih =>
      intro s hi h hm
      rcases rest_step h (hi.2.2 t h).1 o with hr | ⟨h', hr⟩
      · exact ⟨1, by omega, hr⟩
      · obtain ⟨n, h1, h2⟩ := ih _ (step_inv hi t o) h' (by omega)
        exact ⟨n + 1, by omega, h2⟩
  refine key 31 s hi h ?_
  cases s.pc t <;> simp only [rest] <;> omega

/-! ### Concrete schedules -/

/-- `n` steps of thread `t` in the call `o`. -/
def steps (n t : Nat) (o : Op) : List (Nat × Op) := List.replicate n (t, o)

/-- The steps of a whole call. -/
def cost : Op → Nat
  | .get => 18
  | .update _ => 32
  | .init (some _) _ _ => 18
  | .init none _ _ => 32
  | .setCallback _ => 4

/-- A whole call made without interruption. -/
def call (t : Nat) (o : Op) : List (Nat × Op) := steps (cost o) t o

def small : Config := { defaults with nip44Min := 1, nip44Max := 10 }
def large : Config := { defaults with nip44Min := 100, nip44Max := 200 }

/-- Thread 0 initialises the configuration; thread 1 is interrupted in the middle of an update, while thread 0 asks. -/
def clash : List (Nat × Op) :=
  call 0 (.init (some small) (fun _ => none) (.ok ())) ++ steps 18 1 (.update large) ++ call 0 .get ++ steps 14 1 (.update large) ++ call 0 .get

/-- The results of asking. -/
def gots (s : Sys) : List (Nat × Option (Nat × Nat)) :=
  s.done.filterMap fun x => match x with
    | (t, _, .got c) => some (t, c.map fun c => (c.nip44Min, c.nip44Max))
    | _ => none

/-- With threads the one that asks has to wait, and gets the new configuration. -/
example : gots (run true (start defaults) clash) = [(0, some (100, 200))] := by decide +kernel

/-- In the middle of the update thread 1 has the lock. -/
example : (run true (start defaults) (clash.take 40)).lock = some 1 := by decide +kernel

/-- Initialisation from the environment, a callback and an update: the callback is told both configurations. -/
example : ((run true (start small) (call 3 (.init none (fun k => if k = c!"NOSTR_MAX_TAGS" then some (c!"12") else none) (.ok ())) ++
    call 4 (.setCallback true) ++ call 5 (.update large) ++ call 3 .get)).done.map fun x => (x.1, x.2.2)) =
    [(3, .code (.ok ()) none), (4, .code (.ok ()) none), (5, .code (.ok ()) (some ({ defaults with maxTags := 12 }, large))),
      (3, .got (some large))] := by decide +kernel

/-- C186 fails in a build without threads: a thread that asks in the middle of an update gets a minimum from the new configuration and
a maximum from the old one, which no configuration may have. -/
theorem C186_mixed_refuted : ∃ (sched : List (Nat × Op)) (t : Nat) (d : Config),
    (t, Op.get, Ans.got (some d)) ∈ (run false (start defaults) sched).done ∧ d.nip44Min = 100 ∧ d.nip44Max = 10 ∧ ¬ InRange d := by
  have h : ((run false (start defaults) clash).done[1]?).map (fun x => (x.1, x.2.2)) =
      some (0, .got (some { defaults with nip44Min := 100, nip44Max := 10 })) := by decide +kernel
  have ho : ((run false (start defaults) clash).done[1]?).map (fun x => match x.2.1 with | .get => true | _ => false) = some true := by
    decide +kernel
  cases hx : (run false (start defaults) clash).done[1]? with
  | none => rw [hx] at h; cases h
  | some x =>
    obtain ⟨t, o, a⟩ := x
    rw [hx] at h ho
    simp only [Option.map_some, Option.some.injEq, Prod.mk.injEq] at h ho
    obtain ⟨rfl, rfl⟩ := h
    cases o with
    | get => exact ⟨clash, 0, _, List.mem_of_getElem? hx, rfl, rfl, by decide⟩
    | init _ _ _ => cases ho
    | update _ => cases ho
    | setCallback _ => cases ho

/-- The thread is not asking for the configuration. -/
def NotAsking : Pc → Prop
  | .ask o | .enter o => o ≠ Op.get
  | .reading _ => False
  | _ => True

theorem step_tls (thr : Bool) (s : Sys) (u : Nat) (o : Op) (t : Nat) (h : NotAsking (s.pc t)) (ho : u = t → o ≠ Op.get) :
    (step thr s u o).tls t = s.tls t ∧ NotAsking ((step thr s u o).pc t) := by
  have hat : ∀ (s' : Sys) (p : Pc), s'.tls = s.tls → s'.pc = s.pc → (u = t → NotAsking p) →
      (s'.at u p).tls t = s.tls t ∧ NotAsking ((s'.at u p).pc t) := by
    intro s' p h1 h2 h3
    refine ⟨by simp only [Sys.at, h1], ?_⟩
    simp only [Sys.at, h2]
    split
    · rename_i e; exact h3 e.symm
    · exact h
  by_cases hu : u = t
  · subst hu
    have ho := ho rfl
    unfold step
    cases hp : s.pc u with
    | idle => exact hat s _ rfl rfl fun _ => ho
    | ask o' =>
      rw [hp] at h
      simp only
      split
      · split
        · exact ⟨rfl, by rw [hp]; exact h⟩
        · exact hat _ _ rfl rfl fun _ => h
      · exact hat s _ rfl rfl fun _ => h
    | enter o' =>
      rw [hp] at h
      cases o' with
      | get => exact absurd rfl h
      | update c =>
        simp only
        split
        · split <;> exact hat s _ rfl rfl fun _ => trivial
        · exact hat s _ rfl rfl fun _ => trivial
      | init c env n =>
        simp only
        split
        · exact hat s _ rfl rfl fun _ => trivial
        · cases c with
          | none => exact hat s _ rfl rfl fun _ => trivial
          | some c => simp only; split <;> exact hat s _ rfl rfl fun _ => trivial
      | setCallback b => exact hat _ _ rfl rfl fun _ => trivial
    | reading k => rw [hp] at h; exact absurd h id
    | old k c x => simp only; split <;> exact hat s _ rfl rfl fun _ => trivial
    | writing k c x => simp only; split <;> exact hat _ _ rfl rfl fun _ => trivial
    | first k c env n => simp only; split <;> exact hat _ _ rfl rfl fun _ => trivial
    | dflt k env n => simp only; split <;> exact hat _ _ rfl rfl fun _ => trivial
    | environ k env n =>
      simp only
      split
      · exact hat _ _ rfl rfl fun _ => trivial
      · split <;> exact hat _ _ rfl rfl fun _ => trivial
    | leave o' a => exact hat _ _ rfl rfl fun _ => trivial
  · have hne : ∀ p, u = t → NotAsking p := fun _ e => absurd e hu
    unfold step
    cases hp : s.pc u with
    | idle => exact hat s _ rfl rfl (hne _)
    | ask o' =>
      simp only
      split
      · split
        · exact ⟨rfl, h⟩
        · exact hat _ _ rfl rfl (hne _)
      · exact hat s _ rfl rfl (hne _)
    | enter o' =>
      cases o' with
      | get => simp only; split <;> exact hat s _ rfl rfl (hne _)
      | update c =>
        simp only
        split
        · split <;> exact hat s _ rfl rfl (hne _)
        · exact hat s _ rfl rfl (hne _)
      | init c env n =>
        simp only
        split
        · exact hat s _ rfl rfl (hne _)
        · cases c with
          | none => exact hat s _ rfl rfl (hne _)
          | some c => simp only; split <;> exact hat s _ rfl rfl (hne _)
      | setCallback b => exact hat _ _ rfl rfl (hne _)
    | reading k =>
      simp only
      split
      · refine ⟨?_, ?_⟩
        · simp only [Sys.at]; rw [if_neg (fun e => hu e.symm)]
        · simp only [Sys.at]; rw [if_neg (fun e => hu e.symm)]; exact h
      · exact hat s _ rfl rfl (hne _)
    | old k c x => simp only; split <;> exact hat s _ rfl rfl (hne _)
    | writing k c x => simp only; split <;> exact hat _ _ rfl rfl (hne _)
    | first k c env n => simp only; split <;> exact hat _ _ rfl rfl (hne _)
    | dflt k env n => simp only; split <;> exact hat _ _ rfl rfl (hne _)
    | environ k env n =>
      simp only
      split
      · exact hat _ _ rfl rfl (hne _)
      · split <;> exact hat _ _ rfl rfl (hne _)
    | leave o' a => exact hat _ _ rfl rfl (hne _)

/-- C186 (part): what a thread was handed stays as it was, whatever the other threads do and whatever other configuration calls it makes
itself, until it asks again. Missing: the next call that asks (`C186_pointer_refuted`). -/
theorem C186_kept_partial (thr : Bool) (s : Sys) (sched : List (Nat × Op)) (t : Nat) (hi : s.pc t = .idle)
    (hs : ∀ o, (t, o) ∈ sched → o ≠ Op.get) : (run thr s sched).tls t = s.tls t := by
  have key : ∀ (sched : List (Nat × Op)) (s : Sys), NotAsking (s.pc t) → (∀ o, (t, o) ∈ sched → o ≠ Op.get) →
      (run thr s sched).tls t = s.tls t := by
    intro sched
    induction sched with
    | nil => intro s _ _; rfl
    | cons x sched ih =>
      intro s h hs
      have := step_tls thr s x.1 x.2 t h (by rintro rfl; exact hs x.2 (by simp))
      rw [run, List.foldl_cons, ← this.1]
      exact ih _ this.2 fun o ho => hs o (by simp [ho])
  exact key sched s (by rw [hi]; trivial) hs

/-- Another thread changes the configuration meanwhile. -/
example : ((run true (start defaults) (call 0 (.init (some small) (fun _ => none) (.ok ())) ++ call 0 .get)).tls 0).nip44Max = 10 ∧
    ((run true (run true (start defaults) (call 0 (.init (some small) (fun _ => none) (.ok ())) ++ call 0 .get))
      (call 1 (.update large) ++ call 1 .get)).tls 0).nip44Max = 10 := by decide +kernel

/-- C186 fails for a caller that keeps the pointer: after the next library call of the same thread that asks for the configuration, as
reading an event does (event.c:510), the earlier pointer shows what another thread has set meanwhile. -/
theorem C186_pointer_refuted : ∃ sched1 sched2 : List (Nat × Op),
    (∀ x ∈ sched2, x.1 = 0 → ∃ o, x.2 = o ∧ o matches .get) ∧
    ((run true (start defaults) sched1).tls 0).nip44Max = 10 ∧
    ((run true (run true (start defaults) sched1) sched2).tls 0).nip44Max = 200 := by
  refine ⟨call 0 (.init (some small) (fun _ => none) (.ok ())) ++ call 0 .get, call 1 (.update large) ++ call 0 .get, ?_,
    by decide +kernel, by decide +kernel⟩
  intro x hx h0
  simp only [call, steps, List.mem_append] at hx
  rcases hx with hx | hx
  · rw [List.eq_of_mem_replicate hx] at h0; cases h0
  · rw [List.eq_of_mem_replicate hx]; exact ⟨_, rfl, rfl⟩

end Nostr.Config.Threads.Props
