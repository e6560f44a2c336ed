import Verif.Shared.Check

/-!
# Theorems about calls in several threads

`Reach (library .skip) (World.outside flags) w`: the world `w` can come about when any number of threads make any calls of the library in
any order, beginning with no call. `library .skip` has a callback of the configuration that does not call the library.
-/

namespace Nostr.Shared.Props

open Nostr.Shared

/-- The variables for which two threads can collide at all. -/
def shared : List Var :=
  [.contextInit, .ncContext, .secpContext, .featureText, .featureInit, .tableInit, .sActive, .sExpires]

/-- Whatever threads call, and whatever the variables were at the beginning, they never collide at another variable. -/
theorem C210_partial {flags : Var → Bool} {w : World} (r : Reach (library .skip) (.outside flags) w) {v : Var} (h : w.Race v) :
    v ∈ shared := by
  have := (Inv.outside (D := discAny) (fun _ _ e => nomatch e)).reach keepsAny r |>.race keepsAny h
  revert this
  cases v <;> first | (intro _; decide) | (intro e; exact nomatch e)

/-- When the library has been initialised, the table of sessions has been made and the list of features has been asked for once before
the threads begin, and nobody calls `nostr_cleanup`, only two variables are left. -/
theorem C210_prepared_partial {flags : Var → Bool} (hc : flags .contextInit = true) (ht : flags .tableInit = true)
    (hf : flags .featureInit = true) {w : World} (r : Reach (without [Id.cleanup] (library .skip)) (.outside flags) w) {v : Var}
    (h : w.Race v) : v = .sActive ∨ v = .sExpires := by
  have i0 : Inv discPrepared (.outside flags) := Inv.outside fun v b e => by
    cases v <;> first | (cases Option.some.inj e; assumption) | exact nomatch e
  have := (i0.reach keepsPrepared r).race keepsPrepared h
  revert this
  cases v <;> first | (intro _; decide) | (intro e; exact nomatch e)

/-- Whoever has to wait for a lock waits, perhaps through others that wait, for a thread that can go on: there is no deadlock. -/
theorem C210_waiting {flags : Var → Bool} {w : World} (r : Reach (library .skip) (.outside flags) w) {i : Nat}
    (hi : (w.threads i).todo ≠ []) : ∃ j, w.Chain i j ∧ ∃ c v, next (library .skip) c j w = some v :=
  ((Inv.outside (D := discAny) (fun _ _ e => nomatch e)).reach keepsAny r).goes hi

/-- A lock has been given back when the call that took it is over. -/
theorem C210_locks {flags : Var → Bool} {w : World} (r : Reach (library .skip) (.outside flags) w) {i : Nat}
    (hi : (w.threads i).todo = []) (l : Lock) (n : Nat) : w.owner l n ≠ some i := by
  intro ho
  obtain ⟨H, h1, _, h3⟩ := ((Inv.outside (D := discAny) (fun _ _ e => nomatch e)).reach keepsAny r).thread i
  rw [hi] at h1
  simp only [Disc.flows, Option.some.injEq] at h1
  rw [h1] at h3
  exact nomatch ((h3 l n).mp ho).1

/-! ## Schedules -/

def fork : List Prog → Bool
  | .alt _ _ :: _ => true
  | .many _ :: _ => true
  | _ => false

/-- `n` steps of thread `i`, which takes the given ways at forks. -/
def drive (fns : List Fn) (i : Nat) : Nat → List Nat → World → Option World
  | 0, _, w => some w
  | n + 1, ws, w =>
    if fork (w.threads i).todo then (next fns (ws.headD 0) i w).bind (drive fns i n ws.tail) else (next fns 0 i w).bind (drive fns i n ws)

/-- A part of a schedule: the thread, the function it begins with, if it begins one, its ways, and its number of steps. -/
structure Part where
  thread : Nat
  start : Option Nat
  ways : List Nat
  steps : Nat

def play (fns : List Fn) : List Part → World → Option World
  | [], w => some w
  | p :: r, w =>
    match p.start with
    | some f => (next fns f p.thread w).bind fun u => (drive fns p.thread p.steps p.ways u).bind (play fns r)
    | none => (drive fns p.thread p.steps p.ways w).bind (play fns r)

theorem Reach.trans {fns : List Fn} {a b c : World} (h : Reach fns a b) (k : Reach fns b c) : Reach fns a c := by
  induction k with
  | refl => exact h
  | step c i _ e ih => exact .step c i ih e

theorem drive_reach {fns : List Fn} {i : Nat} : ∀ {n : Nat} {ws : List Nat} {w v : World}, drive fns i n ws w = some v → Reach fns w v
  | 0, _, w, v, h => by cases h; exact .refl
  | n + 1, ws, w, v, h => by
    unfold drive at h
    split at h
    · obtain ⟨u, h1, h2⟩ := Option.bind_eq_some_iff.mp h
      exact Reach.trans (.step _ _ .refl h1) (drive_reach h2)
    · obtain ⟨u, h1, h2⟩ := Option.bind_eq_some_iff.mp h
      exact Reach.trans (.step _ _ .refl h1) (drive_reach h2)

theorem play_reach {fns : List Fn} : ∀ {ps : List Part} {w v : World}, play fns ps w = some v → Reach fns w v
  | [], w, v, h => by cases h; exact .refl
  | p :: r, w, v, h => by
    unfold play at h
    split at h
    · obtain ⟨u, h1, h2⟩ := Option.bind_eq_some_iff.mp h
      obtain ⟨t, h3, h4⟩ := Option.bind_eq_some_iff.mp h2
      exact Reach.trans (.step _ _ .refl h1) (Reach.trans (drive_reach h3) (play_reach h4))
    · obtain ⟨t, h3, h4⟩ := Option.bind_eq_some_iff.mp h
      exact Reach.trans (drive_reach h3) (play_reach h4)

/-- Do threads 0 and 1 collide at `v`? -/
def collide (w : World) (v : Var) : Bool :=
  match (w.threads 0).access, (w.threads 1).access with
  | some (a, x), some (b, y) => a == v && b == v && (x || y) && (w.threads 0).cur == (w.threads 1).cur
  | _, _ => false

theorem collide_race {w : World} {v : Var} (h : collide w v = true) : w.Race v := by
  unfold collide at h
  split at h
  · rename_i a x b y e1 e2
    simp only [Bool.and_eq_true, beq_iff_eq, Bool.or_eq_true] at h
    obtain ⟨⟨⟨rfl, rfl⟩, h3⟩, h4⟩ := h
    exact ⟨0, 1, by decide, x, y, e1, e2, h3, fun _ => h4⟩
  · exact nomatch h

theorem race_of {fns : List Fn} {ps : List Part} {flags : Var → Bool} {v : Var}
    (h : (match play fns ps (.outside flags) with | some w => collide w v | none => false) = true) :
    ∃ w, Reach fns (.outside flags) w ∧ w.Race v := by
  split at h
  · rename_i w e; exact ⟨w, play_reach e, collide_race h⟩
  · exact nomatch h

/-- The beginning of the schedules about sessions: thread 0 makes the table (25 and 6 steps) and a session (56 and 14 steps). -/
def oneSession : List Part :=
  [⟨0, some Id.sessionInit, [1], 25⟩, ⟨0, none, [], 6⟩, ⟨0, some Id.sessionCreate, [1, 0, 1, 0, 1, 0, 0, 1, 1], 56⟩, ⟨0, none, [], 14⟩]

/-- From a program that has just begun, two threads can collide at each of these variables: while one initialises the library and the
other generates a key; while one cleans up and the other generates a key; while both ask for the features; while both prepare
sessions; while one gives up or prolongs a session and the other looks for one or makes one. -/
theorem C210_refuted : ∀ v ∈ shared, ∃ w, Reach (library .skip) (.outside fun _ => false) w ∧ w.Race v := by
  intro v hv
  simp only [shared, List.mem_cons, List.not_mem_nil, or_false] at hv
  rcases hv with rfl | rfl | rfl | rfl | rfl | rfl | rfl | rfl
  · exact race_of (ps := [⟨0, some Id.init, [1], 7⟩, ⟨0, none, [0, 0, 1], 15⟩, ⟨1, some Id.keyGenerate, [1], 2⟩]) (by decide +kernel)
  · exact race_of (ps := [⟨0, some Id.init, [1], 7⟩, ⟨0, none, [0, 0, 1], 15⟩, ⟨0, none, [], 5⟩,
      ⟨1, some Id.keyGenerate, [1, 1, 0, 1, 0], 11⟩, ⟨0, some Id.cleanup, [1, 1], 8⟩]) (by decide +kernel)
  · exact race_of (ps := [⟨0, some Id.init, [0, 1], 10⟩, ⟨0, none, [0, 1], 9⟩, ⟨0, none, [], 5⟩,
      ⟨1, some Id.keyGenerate, [1, 1, 0, 1, 1], 11⟩, ⟨0, some Id.cleanup, [0, 1, 1], 11⟩]) (by decide +kernel)
  · exact race_of (ps := [⟨0, some Id.featureList, [1], 4⟩, ⟨1, some Id.featureList, [1], 4⟩]) (by decide +kernel)
  · exact race_of (ps := [⟨0, some Id.featureList, [0], 5⟩, ⟨1, some Id.featureList, [], 1⟩]) (by decide +kernel)
  · exact race_of (ps := [⟨0, some Id.sessionInit, [1], 25⟩, ⟨1, some Id.sessionCreate, [1], 2⟩]) (by decide +kernel)
  · exact race_of (ps := oneSession ++ [⟨0, some Id.sessionDestroy, [1, 0, 1], 16⟩, ⟨1, some Id.sessionGet, [1, 1], 13⟩])
      (by decide +kernel)
  · exact race_of (ps := oneSession ++ [⟨0, some Id.sessionExtend, [1, 0, 1], 18⟩,
      ⟨1, some Id.sessionCreate, [1, 0, 1, 0, 1, 1, 1], 36⟩]) (by decide +kernel)

/-- The flags after a preparation as in `C210_prepared_partial`. -/
def prepared : Var → Bool
  | .contextInit | .tableInit | .featureInit => true
  | _ => false

/-- The two variables that are left cannot be left out: giving up a session, or prolonging it, beside another call. -/
theorem C210_prepared_refuted : ∀ v, v = Var.sActive ∨ v = Var.sExpires →
    ∃ w, Reach (without [Id.cleanup] (library .skip)) (.outside prepared) w ∧ w.Race v := by
  rintro v (rfl | rfl)
  · exact race_of (ps := [⟨0, some Id.sessionDestroy, [1, 0, 1], 16⟩, ⟨1, some Id.sessionGet, [1, 1], 13⟩]) (by decide +kernel)
  · exact race_of (ps := [⟨0, some Id.sessionExtend, [1, 0, 1], 18⟩, ⟨1, some Id.sessionCreate, [1, 0, 1, 0, 1, 1, 1], 36⟩])
      (by decide +kernel)

/-- A callback of the configuration that asks for the configuration waits for the lock its own thread has, for ever. -/
theorem C210_callback_refuted : ∃ w k, Reach (library .user) (.outside fun _ => false) w ∧ w.Waits 0 0 ∧
    (w.threads 0).todo = .lock .config :: k ∧ ∀ c, next (library .user) c 0 w = none := by
  have h : (match play (library .user) [⟨0, some Id.initWithConfig, [1, 0], 14⟩, ⟨0, none, [0, 0, 0], 24⟩,
      ⟨0, some Id.update, [1, 1, 1], 25⟩] (.outside fun _ => false) with
    | some w => match next (library .user) (Id.getCurrent + 1) 0 w with
      | some u => match next (library .user) 0 0 u with
        | some x => decide ((x.threads 0).todo.head? = some (.lock .config) ∧ x.owner .config 0 = some 0)
        | none => false
      | none => false
    | none => false) = true := by decide +kernel
  split at h
  · rename_i w e
    split at h
    · rename_i u e1
      split at h
      · rename_i x e2
        obtain ⟨h1, h2⟩ := of_decide_eq_true h
        have hr := Reach.step _ _ (Reach.step _ _ (play_reach e) e1) e2
        cases ht : (x.threads 0).todo with
        | nil => rw [ht] at h1; exact nomatch h1
        | cons p k =>
          rw [ht] at h1
          cases h1
          refine ⟨x, k, hr, ⟨.config, k, ht, h2⟩, ht, fun c => ?_⟩
          unfold next
          simp only [ht]
          exact if_neg fun hn => by
            have e3 : (x.threads 0).num .config = 0 := rfl
            rw [e3, h2] at hn; exact nomatch hn
      · exact nomatch h
    · exact nomatch h
  · exact nomatch h

/-- Many threads are in the library at once: here three, of which one has the lock of a session and of the table, one waits for the
table and one is about to read the configuration. -/
example : (match play (library .skip) (oneSession ++ [⟨0, some Id.sessionDestroy, [1, 0, 1], 10⟩, ⟨1, some Id.sessionGet, [1], 2⟩,
    ⟨2, some Id.getCurrent, [], 1⟩]) (.outside fun _ => false) with
  | some w => ((w.threads 0).todo.isEmpty, (w.threads 1).todo.head? == some (.lock .table), w.owner .table 0, (w.threads 2).todo.isEmpty)
  | none => (true, false, none, true)) = (false, true, some 0, false) := by decide +kernel

end Nostr.Shared.Props
