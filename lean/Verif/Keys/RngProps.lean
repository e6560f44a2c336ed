import Verif.Keys.RngSpec

/-! # Property theorems: random bytes from several threads (C194) -/

namespace Nostr.Keys.Rng.Props
open Nostr Nostr.Keys.Rng Nostr.Keys.Rng.Spec

/-! ## The invariant -/

/-- A lock is held exactly by the thread at a place that `f` describes. -/
def Excl (f : Pc → Bool) (lock : Option Nat) (pc : Nat → Pc) : Prop := ∀ i, f (pc i) = true ↔ lock = some i

/-- How a lock may change when thread `i` moves to `p`. -/
def Moves (f : Pc → Bool) (lock lock' : Option Nat) (i : Nat) (old p : Pc) : Prop :=
  (lock' = lock ∧ f p = f old) ∨ (lock = none ∧ lock' = some i ∧ f p = true) ∨ (f old = true ∧ lock' = none ∧ f p = false)

theorem Excl.move {f : Pc → Bool} {lock lock' : Option Nat} {pc pc' : Nat → Pc} {i : Nat} {p : Pc} (h : Excl f lock pc)
    (hp : ∀ j, pc' j = if j = i then p else pc j) (hm : Moves f lock lock' i (pc i) p) : Excl f lock' pc' := by
  intro j
  rw [hp]
  rcases hm with ⟨rfl, e⟩ | ⟨rfl, rfl, e⟩ | ⟨e1, rfl, e⟩
  · split
    · rename_i hj; subst hj; rw [e]; exact h j
    · exact h j
  · split
    · rename_i hj; subst hj; simp [e]
    · rename_i hj
      have := (h j).1
      constructor
      · intro hf; exact absurd (this hf) (by simp)
      · intro hs; simp only [Option.some.injEq] at hs; exact absurd hs.symm hj
  · split
    · simp [e]
    · rename_i hj
      constructor
      · intro hf
        have h1 := (h j).1 hf
        rw [(h i).1 e1] at h1
        simp only [Option.some.injEq] at h1
        exact absurd h1.symm hj
      · simp

/-- A request in progress: `len` bytes of `n` are missing. -/
structure Going (max : Nat) (s : St) (n len : Nat) (got : List Part) : Prop where
  sum : (got.map (·.2)).sum + len = n
  size : ∀ p ∈ got, 0 < p.2 ∧ p.2 ≤ max
  nodup : (numbers got).Nodup
  below : ∀ b ∈ numbers got, b < s.next
  new : ∀ b ∈ numbers got, b ∉ delivered s.log

/-- The generator before its first seeding. -/
def Unseeded (s : St) : Prop := s.acc = false ∧ s.seedings = 0

/-- What the place of a thread that holds the lock of the generator says about the shared state. -/
def Says (max : Nat) (s : St) : Pc → Prop
  | .test _ _ => s.flag = false → Unseeded s
  | .seed _ _ => s.flag = false ∧ s.seedings = 0 ∧ s.acc = true
  | .undo _ => s.flag = false ∧ s.seedings = 0
  | .mark _ _ => s.flag = false ∧ s.acc = true ∧ s.seeded = true ∧ s.seedings = 1
  | .loop _ n len got => s.flag = true ∧ Going max s n len got
  | .draw _ n len got b => s.flag = true ∧ Going max s n len got ∧ b = s.next ∧ len ≠ 0
  | .unlock _ none => s.flag = false → Unseeded s
  | .unlock _ (some (n, got)) => s.flag = true ∧ Going max s n 0 got
  | _ => True

structure Glob (max : Nat) (s : St) : Prop where
  lost : s.lost = 0
  flag : s.flag = true → s.acc = true ∧ s.seeded = true ∧ s.seedings = 1
  free : s.rngLock = none → s.flag = false → Unseeded s
  nodup : (delivered s.log).Nodup
  below : ∀ b ∈ delivered s.log, b < s.next
  fills : ∀ r ∈ s.log, Fills max r.1 r.2

structure Inv (max : Nat) (s : St) : Prop where
  rng : Excl Pc.inside s.rngLock s.pc
  ctx : Excl Pc.outer s.ctxLock s.pc
  says : ∀ i, (s.pc i).inside = true → Says max s (s.pc i)
  glob : Glob max s

/-- The parts of the state that `Says` speaks of are unchanged. -/
def Same (s s' : St) : Prop :=
  s'.flag = s.flag ∧ s'.seeded = s.seeded ∧ s'.next = s.next ∧ s'.acc = s.acc ∧ s'.seedings = s.seedings ∧ s'.log = s.log

theorem Same.says {max : Nat} {s s' : St} (h : Same s s') {p : Pc} (hs : Says max s p) : Says max s' p := by
  obtain ⟨h1, h2, h3, h4, h5, h6⟩ := h
  have g : ∀ {n len : Nat} {got : List Part}, Going max s n len got → Going max s' n len got := fun g =>
    ⟨g.sum, g.size, g.nodup, by rw [h3]; exact g.below, by rw [h6]; exact g.new⟩
  cases p with
  | unlock a r =>
    cases r with
    | none => simp only [Says, Unseeded, h1, h4, h5] at hs ⊢; exact hs
    | some r => simp only [Says, h1] at hs ⊢; exact ⟨hs.1, g hs.2⟩
  | loop a n len got => simp only [Says, h1] at hs ⊢; exact ⟨hs.1, g hs.2⟩
  | draw a n len got b => simp only [Says, h1, h3] at hs ⊢; exact ⟨hs.1, g hs.2.1, hs.2.2⟩
  | _ => simp only [Says, Unseeded, h1, h2, h4, h5] at hs ⊢ <;> exact hs

theorem Inv.move {max : Nat} {s s' : St} {i : Nat} {p : Pc} (h : Inv max s) (hp : ∀ j, s'.pc j = if j = i then p else s.pc j)
    (hr : Moves Pc.inside s.rngLock s'.rngLock i (s.pc i) p) (hc : Moves Pc.outer s.ctxLock s'.ctxLock i (s.pc i) p)
    (hs : Same s s' ∨ (s.pc i).inside = true) (hsay : p.inside = true → Says max s' p) (hg : Glob max s') : Inv max s' := by
  refine ⟨h.rng.move hp hr, h.ctx.move hp hc, ?_, hg⟩
  intro j hj
  rw [hp] at hj ⊢
  split
  · rename_i e; rw [if_pos e] at hj; exact hsay hj
  · rename_i e
    rw [if_neg e] at hj
    rcases hs with hs | hs
    · exact hs.says (h.says j hj)
    · have h1 := (h.rng j).1 hj
      rw [(h.rng i).1 hs] at h1
      simp only [Option.some.injEq] at h1
      exact absurd h1.symm e

theorem Glob.same {max : Nat} {s s' : St} (g : Glob max s) (h : Same s s') (hl : s'.lost = s.lost)
    (hf : s'.rngLock = none → s'.flag = false → Unseeded s') : Glob max s' := by
  obtain ⟨h1, h2, h3, h4, h5, h6⟩ := h
  exact ⟨by rw [hl]; exact g.lost, by rw [h1, h2, h4, h5]; exact g.flag, hf, by rw [h6]; exact g.nodup, by rw [h6, h3]; exact g.below,
    by rw [h6]; exact g.fills⟩

theorem start_inv (max : Nat) : Inv max start where
  rng i := by simp [start, Pc.inside]
  ctx i := by simp [start, Pc.outer]
  says i h := by simp [start, Pc.inside] at h
  glob := ⟨rfl, by simp [start], fun _ _ => ⟨rfl, rfl⟩, by simp [start, delivered], by simp [start, delivered], by simp [start]⟩

theorem held {max : Nat} {s : St} {i : Nat} (h : Inv max s) (hi : (s.pc i).inside = true) : s.rngLock ≠ none := by
  rw [(h.rng i).1 hi]; simp

/-- Steps that change nothing but the place of the thread. -/
theorem Inv.stay {max : Nat} {s : St} {i : Nat} {p : Pc} (h : Inv max s) (h1 : p.inside = (s.pc i).inside)
    (h2 : p.outer = (s.pc i).outer) (hs : p.inside = true → Says max s p) : Inv max (s.to i p) :=
  h.move (fun _ => rfl) (.inl ⟨rfl, h1⟩) (.inl ⟨rfl, h2⟩) (.inl ⟨rfl, rfl, rfl, rfl, rfl, rfl⟩)
    (fun hp => Same.says (s := s) (s' := s.to i p) ⟨rfl, rfl, rfl, rfl, rfl, rfl⟩ (hs hp)) ⟨h.glob.lost, h.glob.flag, h.glob.free, h.glob.nodup, h.glob.below, h.glob.fills⟩

theorem inv_step {max : Nat} (hm : 0 < max) {s t : St} (h : Inv max s) (st : Step true max s t) : Inv max t := by
  have g := h.glob
  cases st with
  | call i n hpc => exact h.stay (by rw [hpc]; rfl) (by rw [hpc]; rfl) (by simp [Pc.inside])
  | init i hpc => exact h.stay (by rw [hpc]; rfl) (by rw [hpc]; rfl) (by simp [Pc.inside])
  | initAcquire i hpc hn =>
    exact h.move (i := i) (fun _ => rfl) (.inl ⟨rfl, by rw [hpc]; rfl⟩) (.inr (.inl ⟨hn rfl, rfl, rfl⟩)) (.inl ⟨rfl, rfl, rfl, rfl, rfl, rfl⟩)
      (by simp [Pc.inside]) (g.same ⟨rfl, rfl, rfl, rfl, rfl, rfl⟩ rfl g.free)
  | initReturn i hpc => exact h.stay (by rw [hpc]; rfl) (by rw [hpc]; rfl) (by simp [Pc.inside])
  | initDraw i hpc => exact h.stay (by rw [hpc]; rfl) (by rw [hpc]; rfl) (by simp [Pc.inside])
  | initLeave i hpc =>
    exact h.move (i := i) (fun _ => rfl) (.inl ⟨rfl, by rw [hpc]; rfl⟩) (.inr (.inr ⟨by rw [hpc]; rfl, rfl, rfl⟩)) (.inl ⟨rfl, rfl, rfl, rfl, rfl, rfl⟩)
      (by simp [Pc.inside]) (g.same ⟨rfl, rfl, rfl, rfl, rfl, rfl⟩ rfl g.free)
  | acquire i a n hpc hn =>
    exact h.move (i := i) (fun _ => rfl) (.inr (.inl ⟨hn rfl, rfl, rfl⟩)) (.inl ⟨rfl, by rw [hpc]; rfl⟩) (.inl ⟨rfl, rfl, rfl, rfl, rfl, rfl⟩)
      (fun _ hf => g.free (hn rfl) hf) (g.same ⟨rfl, rfl, rfl, rfl, rfl, rfl⟩ rfl (by simp [St.to]))
  | ready i a n hpc hf =>
    exact h.stay (by rw [hpc]; rfl) (by rw [hpc]; rfl) (fun _ => ⟨hf, ⟨by simp, by simp, by simp [numbers], by simp [numbers], by simp [numbers]⟩⟩)
  | fresh i a n hpc hf =>
    have hi : (s.pc i).inside = true := by rw [hpc]; rfl
    have hh := held h hi
    have hs := h.says i hi
    rw [hpc] at hs
    obtain ⟨ha, hz⟩ := hs hf
    refine h.move (i := i) (fun _ => rfl) (.inl ⟨rfl, by rw [hpc]; rfl⟩) (.inl ⟨rfl, by rw [hpc]; rfl⟩) (.inr hi) (fun _ => ⟨hf, hz, rfl⟩) ?_
    exact ⟨by simp only [St.to]; rw [g.lost, ha]; rfl, fun e => by simp only [St.to] at e; rw [hf] at e; simp at e,
      fun e => absurd e hh, g.nodup, g.below, g.fills⟩
  | noSeed i a n hpc =>
    have hs := h.says i (by rw [hpc]; rfl)
    rw [hpc] at hs
    exact h.stay (by rw [hpc]; rfl) (by rw [hpc]; rfl) (fun _ => ⟨hs.1, hs.2.1⟩)
  | seed i a n hpc =>
    have hi : (s.pc i).inside = true := by rw [hpc]; rfl
    have hh := held h hi
    have hs := h.says i hi
    rw [hpc] at hs
    refine h.move (i := i) (fun _ => rfl) (.inl ⟨rfl, by rw [hpc]; rfl⟩) (.inl ⟨rfl, by rw [hpc]; rfl⟩) (.inr hi)
      (fun _ => ⟨hs.1, hs.2.2, rfl, by simp only [St.to]; rw [hs.2.1]⟩) ?_
    exact ⟨g.lost, fun e => by simp only [St.to] at e; rw [hs.1] at e; simp at e, fun e => absurd e hh, g.nodup, g.below, g.fills⟩
  | undo i a hpc =>
    have hi : (s.pc i).inside = true := by rw [hpc]; rfl
    have hh := held h hi
    have hs := h.says i hi
    rw [hpc] at hs
    refine h.move (i := i) (fun _ => rfl) (.inl ⟨rfl, by rw [hpc]; rfl⟩) (.inl ⟨rfl, by rw [hpc]; rfl⟩) (.inr hi) (fun _ _ => ⟨rfl, hs.2⟩) ?_
    exact ⟨g.lost, fun e => by simp only [St.to] at e; rw [hs.1] at e; simp at e, fun e => absurd e hh, g.nodup, g.below, g.fills⟩
  | mark i a n hpc =>
    have hi : (s.pc i).inside = true := by rw [hpc]; rfl
    have hh := held h hi
    have hs := h.says i hi
    rw [hpc] at hs
    refine h.move (i := i) (fun _ => rfl) (.inl ⟨rfl, by rw [hpc]; rfl⟩) (.inl ⟨rfl, by rw [hpc]; rfl⟩) (.inr hi)
      (fun _ => ⟨rfl, ⟨by simp, by simp, by simp [numbers], by simp [numbers], by simp [numbers]⟩⟩) ?_
    exact ⟨g.lost, fun _ => hs.2, fun e => absurd e hh, g.nodup, g.below, g.fills⟩
  | full i a n got hpc =>
    have hs := h.says i (by rw [hpc]; rfl)
    rw [hpc] at hs
    exact h.stay (by rw [hpc]; rfl) (by rw [hpc]; rfl) (fun _ => hs)
  | noDraw i a n len got hpc hl =>
    have hs := h.says i (by rw [hpc]; rfl)
    rw [hpc] at hs
    exact h.stay (by rw [hpc]; rfl) (by rw [hpc]; rfl) (fun _ hf => by rw [hs.1] at hf; simp at hf)
  | read i a n len got hpc hl =>
    have hs := h.says i (by rw [hpc]; rfl)
    rw [hpc] at hs
    exact h.stay (by rw [hpc]; rfl) (by rw [hpc]; rfl) (fun _ => ⟨hs.1, hs.2, rfl, hl⟩)
  | write i a n len got b hpc =>
    have hi : (s.pc i).inside = true := by rw [hpc]; rfl
    have hh := held h hi
    have hs := h.says i hi
    rw [hpc] at hs
    obtain ⟨hf, gg, rfl, hl⟩ := hs
    have hc : 0 < chunk max len ∧ chunk max len ≤ max ∧ chunk max len ≤ len := by unfold chunk; split <;> omega
    refine h.move (i := i) (fun _ => rfl) (.inl ⟨rfl, by rw [hpc]; rfl⟩) (.inl ⟨rfl, by rw [hpc]; rfl⟩) (.inr hi) (fun _ => ⟨hf, ?_⟩) ?_
    · refine ⟨?_, ?_, ?_, ?_, ?_⟩
      · have := gg.sum
        simp only [List.map_append, List.map_cons, List.map_nil, List.sum_append, List.sum_cons, List.sum_nil]
        omega
      · intro p hp
        rcases List.mem_append.1 hp with hp | hp
        · exact gg.size p hp
        · rw [List.mem_singleton.1 hp]; exact ⟨hc.1, hc.2.1⟩
      · simp only [numbers, List.map_append, List.map_cons, List.map_nil]
        rw [List.nodup_append]
        refine ⟨gg.nodup, by simp, fun x hx y hy e => ?_⟩
        have := gg.below x hx
        simp only [List.mem_singleton] at hy
        omega
      · intro x hx
        simp only [numbers, List.map_append, List.map_cons, List.map_nil, List.mem_append, List.mem_singleton] at hx
        rcases hx with hx | hx
        · exact Nat.lt_succ_of_lt (gg.below x hx)
        · rw [hx]; exact Nat.lt_succ_self _
      · intro x hx
        simp only [numbers, List.map_append, List.map_cons, List.map_nil, List.mem_append, List.mem_singleton] at hx
        rcases hx with hx | hx
        · exact gg.new x hx
        · intro hd; have := g.below x hd; omega
    · exact ⟨g.lost, g.flag, fun e => absurd e hh, g.nodup, fun x hx => Nat.lt_succ_of_lt (g.below x hx), g.fills⟩
  | leave i a r hpc =>
    have hi : (s.pc i).inside = true := by rw [hpc]; rfl
    have hh := held h hi
    have hs := h.says i hi
    rw [hpc] at hs
    have hin : (if a then Pc.initEnd else .idle).inside = false := by cases a <;> rfl
    have hout : (if a then Pc.initEnd else .idle).outer = (s.pc i).outer := by rw [hpc]; cases a <;> rfl
    refine h.move (i := i) (fun _ => rfl) (.inr (.inr ⟨hi, rfl, hin⟩)) (.inl ⟨rfl, hout⟩) (.inr hi) (fun e => by rw [hin] at e; simp at e) ?_
    cases r with
    | none =>
      refine ⟨g.lost, g.flag, fun _ hf => hs hf, ?_, ?_, ?_⟩
      · simpa [St.to] using g.nodup
      · simpa [St.to] using g.below
      · simpa [St.to] using g.fills
    | some r =>
      obtain ⟨n, got⟩ := r
      obtain ⟨hf, gg⟩ := hs
      have hd : delivered (s.log ++ (some (n, got)).toList) = delivered s.log ++ numbers got := by
        simp [delivered]
      refine ⟨g.lost, g.flag, fun _ e => by simp only [St.to] at e; rw [hf] at e; simp at e, ?_, ?_, ?_⟩
      · simp only [St.to]
        rw [hd, List.nodup_append]
        exact ⟨g.nodup, gg.nodup, fun x hx y hy e => gg.new y hy (e ▸ hx)⟩
      · simp only [St.to]
        rw [hd]
        intro x hx
        rcases List.mem_append.1 hx with hx | hx
        · exact g.below x hx
        · exact gg.below x hx
      · simp only [St.to]
        intro x hx
        rcases List.mem_append.1 hx with hx | hx
        · exact g.fills x hx
        · simp only [Option.toList, List.mem_singleton] at hx
          subst hx
          exact ⟨by have := gg.sum; simpa using this, gg.size⟩

theorem reach_inv {max : Nat} (hm : 0 < max) {s : St} (r : Reach true max start s) : Inv max s := by
  induction r with
  | refl => exact start_inv max
  | step _ st ih => exact inv_step hm ih st

/-! ## What callers get -/

/-- **C194 (no bytes twice).** Whatever the schedule, whoever draws and whatever fails in between, no answer of the generator is given out
twice: neither to two requests nor twice within one. -/
theorem C194_distinct {max : Nat} (hm : 0 < max) {s : St} (r : Reach true max start s) : (delivered s.log).Nodup :=
  (reach_inv hm r).glob.nodup

/-- **C194 (all bytes).** Every request that succeeds was filled completely, by parts of at most the size that the generator allows. -/
theorem C194_filled {max : Nat} (hm : 0 < max) {s : St} (r : Reach true max start s) : ∀ e ∈ s.log, Fills max e.1 e.2 :=
  (reach_inv hm r).glob.fills

/-- **C194 (seeded, alone).** A thread that draws finds the generator seeded, and is the only one that draws or seeds; the generator is seeded
at most once, and no accumulator is lost, however often the seeding fails before. -/
theorem C194_seeded {max : Nat} (hm : 0 < max) {s : St} (r : Reach true max start s) :
    (∀ i a n len got b, s.pc i = .draw a n len got b → s.seeded = true ∧ b = s.next ∧ ∀ j, (s.pc j).inside = true → j = i) ∧
      s.seedings ≤ 1 ∧ s.lost = 0 := by
  have h := reach_inv hm r
  refine ⟨fun i a n len got b hpc => ?_, ?_, h.glob.lost⟩
  · have hi : (s.pc i).inside = true := by rw [hpc]; rfl
    have hs := h.says i hi
    rw [hpc] at hs
    refine ⟨(h.glob.flag hs.1).2.1, hs.2.2.1, fun j hj => ?_⟩
    have h1 := (h.rng j).1 hj
    rw [(h.rng i).1 hi] at h1
    simpa using h1.symm
  · cases hf : s.flag with
    | true => exact Nat.le_of_eq (h.glob.flag hf).2.2
    | false =>
      cases hl : s.rngLock with
      | none => rw [(h.glob.free hl hf).2]; omega
      | some i =>
        have hi := (h.rng i).2 hl
        have hs := h.says i hi
        revert hs hi
        cases s.pc i with
        | unlock a r =>
          cases r with
          | none => intro _ hs; rw [(hs hf).2]; omega
          | some r => intro _ hs; rw [hs.1] at hf; simp at hf
        | test a n => intro _ hs; rw [(hs hf).2]; omega
        | seed a n => intro _ hs; rw [hs.2.1]; omega
        | undo a => intro _ hs; rw [hs.2]; omega
        | mark a n => intro _ hs; rw [hs.2.2.2]; omega
        | loop a n len got => intro _ hs; rw [hs.1] at hf; simp at hf
        | draw a n len got b => intro _ hs; rw [hs.1] at hf; simp at hf
        | _ => intro hi; simp [Pc.inside] at hi

/-! ## Nobody waits forever -/

theorem _root_.Nostr.Keys.Rng.Reach.trans {locks : Bool} {max : Nat} {s t u : St} (h : Reach locks max s t) (h' : Reach locks max t u) : Reach locks max s u := by
  induction h' with
  | refl => exact h
  | step _ st ih => exact .step ih st

theorem _root_.Nostr.Keys.Rng.Reach.one {locks : Bool} {max : Nat} {s t : St} (h : Step locks max s t) : Reach locks max s t := .step .refl h

/-- Where a request ends. -/
def back (a : Bool) : Pc := if a then .initEnd else .idle

/-- Thread `j` alone has moved from `s` to `t`, without touching the lock of the context. -/
def Only (j : Nat) (s t : St) : Prop := t.ctxLock = s.ctxLock ∧ ∀ k, k ≠ j → t.pc k = s.pc k

theorem to_at (s : St) (i : Nat) (p : Pc) : (s.to i p).pc i = p := by simp [St.to]

theorem to_only {s : St} {i : Nat} {p : Pc} : ∀ k, k ≠ i → (s.to i p).pc k = s.pc k := by
  intro k hk; simp [St.to, hk]

theorem only_to {s s1 t : St} {j : Nat} {p : Pc} (h1 : s1.pc = s.pc) (h2 : s1.ctxLock = s.ctxLock) (h : Only j (s1.to j p) t) : Only j s t :=
  ⟨h.1.trans h2, fun k hk => by rw [h.2 k hk, to_only k hk, h1]⟩

/-- From the end of a request. -/
theorem from_unlock {max : Nat} {s : St} {j : Nat} {a : Bool} {r : Option (Nat × List Part)} (h : s.pc j = .unlock a r) :
    ∃ t, Reach true max s t ∧ Only j s t ∧ t.rngLock = none ∧ t.pc j = back a ∧ t.log = s.log ++ r.toList :=
  ⟨_, .one (.leave s j a r h), ⟨rfl, to_only⟩, rfl, to_at _ _ _, rfl⟩

/-- From the loop on, a request can be filled. -/
theorem from_loop {max : Nat} (hm : 0 < max) (a : Bool) (n : Nat) {j : Nat} : ∀ (len : Nat) (got : List Part) (s : St), s.pc j = .loop a n len got →
    ∃ t got', Reach true max s t ∧ Only j s t ∧ t.rngLock = none ∧ t.pc j = back a ∧ t.log = s.log ++ [(n, got')] := by
  intro len
  induction len using Nat.strongRecOn with
  | _ len ih =>
    intro got s h
    by_cases hl : len = 0
    · subst hl
      obtain ⟨t, r, o, l, p, g⟩ := from_unlock (max := max) (to_at s j (.unlock a (some (n, got))))
      exact ⟨t, got, (Reach.one (.full s j a n got h)).trans r, only_to rfl rfl o, l, p, g⟩
    · have s1 := Step.read (locks := true) (max := max) s j a n len got h hl
      have s2 := Step.write (locks := true) (max := max) _ j a n len got s.next (to_at s j (.draw a n len got s.next))
      have hc : len - chunk max len < len := by unfold chunk; split <;> omega
      obtain ⟨t, got', r, o, l, p, g⟩ := ih _ hc _ _ (to_at _ j _)
      exact ⟨t, got', ((Reach.one s1).trans (.one s2)).trans r,
        only_to (s := s) rfl rfl (only_to rfl rfl o), l, p, g⟩

theorem from_mark {max : Nat} (hm : 0 < max) {a : Bool} {n : Nat} {j : Nat} {s : St} (h : s.pc j = .mark a n) :
    ∃ t got', Reach true max s t ∧ Only j s t ∧ t.rngLock = none ∧ t.pc j = back a ∧ t.log = s.log ++ [(n, got')] := by
  obtain ⟨t, got', r, o, l, p, g⟩ := from_loop hm a n _ _ _ (to_at { s with flag := true } j (.loop a n n []))
  exact ⟨t, got', (Reach.one (.mark s j a n h)).trans r, only_to rfl rfl o, l, p, g⟩

theorem from_seed {max : Nat} (hm : 0 < max) {a : Bool} {n : Nat} {j : Nat} {s : St} (h : s.pc j = .seed a n) :
    ∃ t got', Reach true max s t ∧ Only j s t ∧ t.rngLock = none ∧ t.pc j = back a ∧ t.log = s.log ++ [(n, got')] := by
  obtain ⟨t, got', r, o, l, p, g⟩ := from_mark hm (to_at { s with seeded := true, seedings := s.seedings + 1 } j (.mark a n))
  exact ⟨t, got', (Reach.one (.seed s j a n h)).trans r, only_to rfl rfl o, l, p, g⟩

theorem from_test {max : Nat} (hm : 0 < max) {a : Bool} {n : Nat} {j : Nat} {s : St} (h : s.pc j = .test a n) :
    ∃ t got', Reach true max s t ∧ Only j s t ∧ t.rngLock = none ∧ t.pc j = back a ∧ t.log = s.log ++ [(n, got')] := by
  cases hf : s.flag with
  | true =>
    obtain ⟨t, got', r, o, l, p, g⟩ := from_loop hm a n _ _ _ (to_at s j (.loop a n n []))
    exact ⟨t, got', (Reach.one (.ready s j a n h hf)).trans r, only_to rfl rfl o, l, p, g⟩
  | false =>
    obtain ⟨t, got', r, o, l, p, g⟩ := from_seed hm (to_at { s with acc := true, lost := s.lost + if s.acc then 1 else 0, seeded := false } j (.seed a n))
    exact ⟨t, got', (Reach.one (.fresh s j a n h hf)).trans r, only_to rfl rfl o, l, p, g⟩

/-- Whoever holds the lock of the generator can give it back. -/
theorem from_inside {max : Nat} (hm : 0 < max) {j : Nat} {s : St} (h : (s.pc j).inside = true) :
    ∃ t l, Reach true max s t ∧ Only j s t ∧ t.rngLock = none ∧ t.pc j = back (s.pc j).outer ∧ t.log = s.log ++ l := by
  cases hp : s.pc j with
  | test a n => obtain ⟨t, g, r, o, l, p, e⟩ := from_test hm hp; exact ⟨t, _, r, o, l, p, e⟩
  | seed a n => obtain ⟨t, g, r, o, l, p, e⟩ := from_seed hm hp; exact ⟨t, _, r, o, l, p, e⟩
  | mark a n => obtain ⟨t, g, r, o, l, p, e⟩ := from_mark hm hp; exact ⟨t, _, r, o, l, p, e⟩
  | loop a n len got => obtain ⟨t, g, r, o, l, p, e⟩ := from_loop hm a n len got s hp; exact ⟨t, _, r, o, l, p, e⟩
  | unlock a r => obtain ⟨t, r, o, l, p, e⟩ := from_unlock (max := max) hp; exact ⟨t, _, r, o, l, p, e⟩
  | undo a =>
    obtain ⟨t, r, o, l, p, e⟩ := from_unlock (max := max) (to_at { s with acc := false } j (.unlock a none))
    exact ⟨t, _, (Reach.one (.undo s j a hp)).trans r, only_to rfl rfl o, l, p, e⟩
  | draw a n len got b =>
    have s2 := Step.write (locks := true) (max := max) s j a n len got b hp
    obtain ⟨t, g, r, o, l, p, e⟩ := from_loop hm a n _ _ _ (to_at { s with next := b + 1 } j (.loop a n (len - chunk max len) (got ++ [(b, chunk max len)])))
    exact ⟨t, _, (Reach.one s2).trans r, only_to rfl rfl o, l, p, e⟩
  | _ => rw [hp] at h; simp [Pc.inside] at h

/-- The lock of the generator can become free, while the threads outside stay where they are. -/
theorem free_rng {max : Nat} (hm : 0 < max) {s : St} (h : Inv max s) :
    ∃ t l, Reach true max s t ∧ t.rngLock = none ∧ t.ctxLock = s.ctxLock ∧ t.log = s.log ++ l ∧
      ∀ k, (s.pc k).inside = false → t.pc k = s.pc k := by
  cases hl : s.rngLock with
  | none => exact ⟨s, [], .refl, hl, rfl, by simp, fun _ _ => rfl⟩
  | some j =>
    have hj := (h.rng j).2 hl
    obtain ⟨t, l, r, o, e, -, g⟩ := from_inside hm hj
    refine ⟨t, l, r, e, o.1, g, fun k hk => o.2 k ?_⟩
    intro e; subst e; rw [hk] at hj; simp at hj

/-- A waiting request can be served. -/
theorem serve {max : Nat} (hm : 0 < max) {s : St} (h : Inv max s) {i : Nat} {a : Bool} {n : Nat} (hi : s.pc i = .wait a n) :
    ∃ t l got, Reach true max s t ∧ t.pc i = back a ∧ t.log = s.log ++ l ++ [(n, got)] ∧ t.ctxLock = s.ctxLock ∧
      ∀ k, k ≠ i → (s.pc k).inside = false → t.pc k = s.pc k := by
  obtain ⟨t, l, r, f, c, g, o⟩ := free_rng hm h
  have ht : t.pc i = .wait a n := by rw [o i (by rw [hi]; rfl)]; exact hi
  have st := Step.acquire (locks := true) (max := max) t i a n ht (fun _ => f)
  obtain ⟨u, got, r', o', -, p', g'⟩ := from_test hm (to_at { t with rngLock := some i } i (.test a n))
  refine ⟨u, l, got, (r.trans (.one st)).trans r', p', by rw [g']; simp only [St.to]; rw [g], o'.1.trans c, fun k hk hin => ?_⟩
  rw [o'.2 k hk, to_only k hk]
  exact o k hin

/-- **C194 (served).** In every state that can be reached, every waiting request can still be answered: there is an execution in which it gets
its bytes. The locks cannot block each other, though `nostr_init` holds one while it waits for the other. -/
theorem C194_served {max : Nat} (hm : 0 < max) {s : St} (r : Reach true max start s) {i : Nat} {a : Bool} {n : Nat} (hi : s.pc i = .wait a n) :
    ∃ t l got, Reach true max s t ∧ t.pc i = (if a then .initEnd else .idle) ∧ t.log = s.log ++ l ++ [(n, got)] := by
  obtain ⟨t, l, got, r', p, g, -⟩ := serve hm (reach_inv hm r) hi
  exact ⟨t, l, got, r', p, g⟩

/-- A thread that does not wait for the lock of the context can return. -/
theorem returns {max : Nat} (hm : 0 < max) {s : St} (h : Inv max s) {i : Nat} (hi : s.pc i ≠ .initWait) :
    ∃ t, Reach true max s t ∧ t.pc i = .idle ∧ t.ctxLock = (if (s.pc i).outer then none else s.ctxLock) ∧
      ∀ k, k ≠ i → (s.pc k).inside = false → t.pc k = s.pc k := by
  -- the end of `nostr_init`
  have last : ∀ {t : St} {a : Bool}, Reach true max s t → t.pc i = back a → t.ctxLock = s.ctxLock →
      (∀ k, k ≠ i → (s.pc k).inside = false → t.pc k = s.pc k) →
      ∃ t, Reach true max s t ∧ t.pc i = .idle ∧ t.ctxLock = (if a then none else s.ctxLock) ∧
        ∀ k, k ≠ i → (s.pc k).inside = false → t.pc k = s.pc k := by
    intro t a r p c o
    cases a with
    | false => exact ⟨t, r, p, c, o⟩
    | true =>
      refine ⟨_, r.trans (.one (.initLeave t i p)), to_at _ _ _, rfl, fun k hk hin => ?_⟩
      rw [to_only k hk]; exact o k hk hin
  by_cases hin : (s.pc i).inside = true
  · obtain ⟨t, l, r, o, -, p, -⟩ := from_inside hm hin
    exact last r p o.1 (fun k hk _ => o.2 k hk)
  · cases hp : s.pc i with
    | idle => exact ⟨s, .refl, hp, rfl, fun _ _ _ => rfl⟩
    | initWait => exact absurd hp hi
    | initIn =>
      exact last (a := true) (.one (.initReturn s i hp)) (to_at _ _ _) rfl (fun k hk _ => to_only k hk)
    | initEnd => exact last (a := true) .refl hp rfl (fun _ _ _ => rfl)
    | wait a n =>
      obtain ⟨t, l, got, r, p, -, c, o⟩ := serve hm h hp
      exact last r p c o
    | _ => rw [hp] at hin; simp [Pc.inside] at hin

/-- **C194 (nobody hangs).** In every state that can be reached, every thread can still return from the function it is in. -/
theorem C194_returns {max : Nat} (hm : 0 < max) {s : St} (r : Reach true max start s) (i : Nat) :
    ∃ t, Reach true max s t ∧ t.pc i = .idle := by
  have h := reach_inv hm r
  by_cases hi : s.pc i = .initWait
  · cases hc : s.ctxLock with
    | none =>
      have st := Step.initAcquire (locks := true) (max := max) s i hi (fun _ => hc)
      obtain ⟨t, r', p, -⟩ := returns hm (inv_step hm h st) (i := i) (by rw [to_at]; simp)
      exact ⟨t, (Reach.one st).trans r', p⟩
    | some k =>
      have hk := (h.ctx k).2 hc
      have hne : i ≠ k := by intro e; subst e; rw [hi] at hk; simp [Pc.outer] at hk
      obtain ⟨t, r', -, c, o⟩ := returns hm h (i := k) (by intro e; rw [e] at hk; simp [Pc.outer] at hk)
      rw [hk] at c
      have ht : t.pc i = .initWait := by rw [o i hne (by rw [hi]; rfl)]; exact hi
      have st := Step.initAcquire (locks := true) (max := max) t i ht (fun _ => c)
      obtain ⟨u, r'', p, -⟩ := returns hm (reach_inv hm ((r.trans r').trans (.one st))) (i := i) (by rw [to_at]; simp)
      exact ⟨u, (r'.trans (.one st)).trans r'', p⟩
  · obtain ⟨t, r', p, -⟩ := returns hm h hi
    exact ⟨t, r', p⟩

/-! ## Without locks, and concrete cases -/

/-- **C194 (the locks are needed).** In a build without `NOSTR_FEATURE_THREADING` the locks are empty functions: two threads that draw 32 bytes
at the same time can get the same 32 bytes. -/
theorem C194_unlocked : ∃ s, Reach false 1024 start s ∧ s.log = [(32, [(0, 32)]), (32, [(0, 32)])] ∧ ¬ (delivered s.log).Nodup := by
  have r := Reach.step (locks := false) (max := 1024) .refl (.call start 0 32 rfl)
  have r := r.step (.call _ 1 32 rfl)
  have r := r.step (.acquire _ 0 false 32 rfl (by simp))
  have r := r.step (.acquire _ 1 false 32 rfl (by simp))
  have r := r.step (.fresh _ 0 false 32 rfl rfl)
  have r := r.step (.seed _ 0 false 32 rfl)
  have r := r.step (.mark _ 0 false 32 rfl)
  have r := r.step (.ready _ 1 false 32 rfl rfl)
  have r := r.step (.read _ 0 false 32 32 [] rfl (by simp))
  have r := r.step (.read _ 1 false 32 32 [] rfl (by simp))
  have r := r.step (.write _ 0 false 32 32 [] 0 rfl)
  have r := r.step (.write _ 1 false 32 32 [] 0 rfl)
  have r := r.step (.full _ 0 false 32 [(0, 32)] rfl)
  have r := r.step (.full _ 1 false 32 [(0, 32)] rfl)
  have r := r.step (.leave _ 0 false _ rfl)
  have r := r.step (.leave _ 1 false _ rfl)
  exact ⟨_, r, rfl, by decide⟩

/-- A thread draws 1500 bytes in two parts; another one initialises the library meanwhile and waits with the lock of the context in its hands. -/
example : ∃ s, Reach true 1024 start s ∧ s.log = [(1500, [(0, 1024), (1, 476)])] ∧ s.pc 1 = .wait true 32 ∧ s.ctxLock = some 1 := by
  have r := Reach.step (locks := true) (max := 1024) .refl (.call start 0 1500 rfl)
  have r := r.step (.init _ 1 rfl)
  have r := r.step (.initAcquire _ 1 rfl (fun _ => rfl))
  have r := r.step (.acquire _ 0 false 1500 rfl (fun _ => rfl))
  have r := r.step (.initDraw _ 1 rfl)
  have r := r.step (.fresh _ 0 false 1500 rfl rfl)
  have r := r.step (.seed _ 0 false 1500 rfl)
  have r := r.step (.mark _ 0 false 1500 rfl)
  have r := r.step (.read _ 0 false 1500 1500 [] rfl (by simp))
  have r := r.step (.write _ 0 false 1500 1500 [] 0 rfl)
  have r := r.step (.read _ 0 false 1500 476 [(0, 1024)] rfl (by simp))
  have r := r.step (.write _ 0 false 1500 476 [(0, 1024)] 1 rfl)
  have r := r.step (.full _ 0 false 1500 [(0, 1024), (1, 476)] rfl)
  have r := r.step (.leave _ 0 false _ rfl)
  exact ⟨_, r, rfl, rfl, rfl⟩

/-- A failing seeding: nothing is answered, the accumulator is given back, and the next request seeds again. -/
example : ∃ s, Reach true 1024 start s ∧ s.log = [] ∧ s.pc 0 = .draw false 32 32 [] 0 ∧ s.seedings = 1 := by
  have r := Reach.step (locks := true) (max := 1024) .refl (.call start 0 32 rfl)
  have r := r.step (.acquire _ 0 false 32 rfl (fun _ => rfl))
  have r := r.step (.fresh _ 0 false 32 rfl rfl)
  have r := r.step (.noSeed _ 0 false 32 rfl)
  have r := r.step (.undo _ 0 false rfl)
  have r := r.step (.leave _ 0 false _ rfl)
  have r := r.step (.call _ 0 32 rfl)
  have r := r.step (.acquire _ 0 false 32 rfl (fun _ => rfl))
  have r := r.step (.fresh _ 0 false 32 rfl rfl)
  have r := r.step (.seed _ 0 false 32 rfl)
  have r := r.step (.mark _ 0 false 32 rfl)
  have r := r.step (.read _ 0 false 32 32 [] rfl (by simp))
  exact ⟨_, r, rfl, rfl, rfl⟩

end Nostr.Keys.Rng.Props
