import Verif.Nip13.Parallel
import Verif.Nip13.Props

/-! # Parallel mining ends, does what it says and shares its memory: C143 to C146 -/

namespace Nostr.Nip13.Props
open Nostr Nostr.Event Nostr.Nip13 Spec

/-- Every run has an account of what was tried. -/
theorem hist_of_steps {cfg : Option Config.Config} {C : Crypto} {b : Build} {target : Int} {n maxIter : Nat} {s0 s : St}
    (h : Steps cfg C b target n maxIter s0 s) : ∃ att bad, Hist cfg C b target n maxIter s0 att bad s := by
  induction h with
  | refl => exact ⟨_, _, .start⟩
  | tail _ hs ih =>
    obtain ⟨att, bad, h⟩ := ih
    exact ⟨_, _, h.step hs⟩

theorem steps_of_n {cfg : Option Config.Config} {C : Crypto} {b : Build} {target : Int} {n maxIter k : Nat} {s0 s : St}
    (h : StepsN cfg C b target n maxIter s0 k s) : Steps cfg C b target n maxIter s0 s := by
  induction h with
  | start => exact .refl _
  | step _ hs ih => exact ih.tail hs

/-! ## C143: the call comes back -/

/-- A sum over the workers. -/
def total (f : Nat → Nat) : Nat → Nat
  | 0 => 0
  | n + 1 => total f n + f n

theorem total_same {f g : Nat → Nat} : ∀ {n : Nat}, (∀ i < n, f i = g i) → total f n = total g n
  | 0, _ => rfl
  | n + 1, h => by
    rw [total, total, total_same (fun i hi => h i (by omega)), h n (by omega)]

theorem total_less {f g : Nat → Nat} {i : Nat} (h1 : g i < f i) (h2 : ∀ j, j ≠ i → g j = f j) :
    ∀ {n : Nat}, i < n → total g n < total f n
  | n + 1, hn => by
    rw [total, total]
    rcases Nat.lt_or_ge i n with hi | hi
    · have := total_less h1 h2 hi
      rw [h2 n (by omega)]
      omega
    · have : i = n := by omega
      subst this
      rw [total_same (f := g) (g := f) (fun j hj => h2 j (by omega))]
      omega

theorem total_le {f : Nat → Nat} {m : Nat} : ∀ {n : Nat}, (∀ i, f i ≤ m) → total f n ≤ n * m
  | 0, _ => by simp [total]
  | n + 1, h => by
    have := total_le (n := n) h
    have := h n
    rw [total, Nat.succ_mul]
    omega

/-- How far a worker is from the end of its attempt. -/
def rank : Pc → Nat
  | .test => 10
  | .wait => 9
  | .recheck => 8
  | .nonce => 7
  | .time => 6
  | .ident => 5
  | .judge => 4
  | .again => 3
  | .leave => 1
  | .done => 0

/-- Steps a worker can still make. -/
def left (maxIter : Nat) (w : Worker) : Nat := 10 * (maxIter - w.iter) + rank w.pc

/-- Steps all threads can still make. -/
def fuel (n maxIter : Nat) (s : St) : Nat :=
  total (fun i => left maxIter (s.workers i)) n + (n - s.started) + if s.failed then 0 else 1

theorem fuel_less {cfg : Option Config.Config} {C : Crypto} {b : Build} {target : Int} {n maxIter : Nat} (hm : maxIter < 2 ^ 64) (h0 : maxIter ≠ 0)
    {e0 : Event} {att : Nat → List Event} {bad : Nat → Bool} {s t : St} (h : HInv C b target n maxIter e0 att bad s)
    (hs : Step cfg C b target n maxIter s t) : fuel n maxIter t < fuel n maxIter s := by
  have key : ∀ (i : Nat) (t : St) (w : Worker), i < s.started → t.started = s.started → t.failed = s.failed →
      (∀ j, t.workers j = if j = i then w else s.workers j) → left maxIter w < left maxIter (s.workers i) → fuel n maxIter t < fuel n maxIter s := by
    intro i t w hi e1 e2 e3 hw
    have := h.started
    have hl := total_less (f := fun j => left maxIter (s.workers j)) (g := fun j => left maxIter (t.workers j)) (i := i)
      (by simp only [e3, if_true]; exact hw) (fun j hj => by simp only [e3, if_neg hj]) (show i < n by omega)
    unfold fuel
    rw [e1, e2]
    omega
  cases hs with
  | create hlt hf =>
    unfold fuel
    simp only
    omega
  | createFails hlt hf =>
    unfold fuel
    simp only [hf, if_true, Bool.false_eq_true, if_false]
    omega
  | unlockAgain i hlt hp =>
    obtain ⟨c, k⟩ := h.ok i
    have := k.busy h0 (by rw [hp]; simp) (by rw [hp]; simp) (by rw [hp]; simp)
    refine key i _ _ hlt rfl rfl (fun _ => rfl) ?_
    simp only [left, hp, rank, k.iter]
    omega
  | recheck i hlt hp =>
    refine key i _ _ hlt rfl rfl (fun _ => rfl) ?_
    simp only [left, hp]
    split <;> simp [rank]
  | stop i hlt hp _ => exact key i _ _ hlt rfl rfl (fun _ => rfl) (by simp [left, hp, rank])
  | goOn i hlt hp _ _ => exact key i _ _ hlt rfl rfl (fun _ => rfl) (by simp [left, hp, rank])
  | acquire i hlt hp _ => exact key i _ _ hlt rfl rfl (fun _ => rfl) (by simp [left, hp, rank])
  | setNonce i e hlt hp _ => exact key i _ _ hlt rfl rfl (fun _ => rfl) (by simp [left, hp, rank])
  | nonceFails i e hlt hp _ => exact key i _ _ hlt rfl rfl (fun _ => rfl) (by simp [left, hp, rank])
  | setTime i e hlt hp => exact key i _ _ hlt rfl rfl (fun _ => rfl) (by simp [left, hp, rank])
  | setId i e hlt hp _ => exact key i _ _ hlt rfl rfl (fun _ => rfl) (by simp [left, hp, rank])
  | idFails i e hlt hp _ => exact key i _ _ hlt rfl rfl (fun _ => rfl) (by simp [left, hp, rank])
  | nonceMemory i e hlt hp _ => exact key i _ _ hlt rfl rfl (fun _ => rfl) (by simp [left, hp, rank])
  | idMemory i hlt hp => exact key i _ _ hlt rfl rfl (fun _ => rfl) (by simp [left, hp, rank])
  | win i hlt hp _ => exact key i _ _ hlt rfl rfl (fun _ => rfl) (by simp [left, hp, rank])
  | lose i hlt hp _ => exact key i _ _ hlt rfl rfl (fun _ => rfl) (by simp [left, hp, rank])
  | unlockLeave i hlt hp => exact key i _ _ hlt rfl rfl (fun _ => rfl) (by simp [left, hp, rank])

/-- C143, termination: with a bound on the iterations, no schedule makes more than `n * (10 * maxIter + 11) + 1` steps,
whatever the clock, the hash and the memory do. -/
theorem C143_terminates {cfg : Option Config.Config} {C : Crypto} {b : Build} {target : Int} (ht : 1 ≤ target) {n maxIter k : Nat}
    (hm : maxIter < 2 ^ 64) (hpos : 0 < maxIter) {e0 e1 : Event} {s : St} (h0 : ensureNonce cfg e0 target = .ok e1)
    (h : StepsN cfg C b target n maxIter (start e1) k s) : k ≤ n * (10 * maxIter + 11) + 1 := by
  have key : k + fuel n maxIter s ≤ fuel n maxIter (start e1) := by
    induction h with
    | start => omega
    | step hs hstep ih =>
      obtain ⟨att, bad, hh⟩ := hist_of_steps (steps_of_n hs)
      have := fuel_less hm (by omega) (hinv_hist (by omega) hm h0 hh) hstep
      omega
  have hf : fuel n maxIter (start e1) ≤ n * (10 * maxIter + 11) + 1 := by
    have := total_le (f := fun i => left maxIter ((start e1).workers i)) (m := 10 * maxIter + 10) (n := n) (fun i => by simp [start, left, rank])
    unfold fuel
    simp only [start, Bool.false_eq_true, if_false, Nat.sub_zero] at this ⊢
    have e : n * (10 * maxIter + 11) = n * (10 * maxIter + 10) + n := by rw [← Nat.mul_succ]
    omega
  omega

/-- C143, no deadlock: as long as the call is not about to return, some thread can go on, with or without a bound. -/
theorem C143_no_deadlock {cfg : Option Config.Config} {C : Crypto} {b : Build} {target : Int} (ht : 1 ≤ target) {n maxIter : Nat}
    (hm : maxIter < 2 ^ 64) {e0 e1 : Event} {s : St} (h0 : ensureNonce cfg e0 target = .ok e1)
    (h : Steps cfg C b target n maxIter (start e1) s) (ho : ¬ Over n s) : ∃ t, Step cfg C b target n maxIter s t := by
  obtain ⟨att, bad, hh⟩ := hist_of_steps h
  have inv := hinv_hist (by omega) hm h0 hh
  have hst := inv.started
  by_cases hmain : s.failed = true ∨ s.started = n
  · -- some worker is not done
    obtain ⟨i, hi, hp⟩ : ∃ i, i < s.started ∧ (s.workers i).pc ≠ .done := by
      refine Classical.byContradiction fun hc => ho ⟨hmain, fun i hi => ?_⟩
      exact Classical.byContradiction fun hp => hc ⟨i, hi, hp⟩
    -- whoever holds the lock can go on
    have go : ∀ j, j < s.started → (s.workers j).pc.crit = true → ∃ t, Step cfg C b target n maxIter s t := by
      intro j hj hc
      cases hpj : (s.workers j).pc with
      | test => rw [hpj] at hc; simp [Pc.crit] at hc
      | wait => rw [hpj] at hc; simp [Pc.crit] at hc
      | done => rw [hpj] at hc; simp [Pc.crit] at hc
      | recheck => exact ⟨_, .recheck s j hj hpj⟩
      | nonce => exact ⟨_, .nonceMemory s j _ hj hpj .same⟩
      | time => exact ⟨_, .setTime s j 0 hj hpj⟩
      | ident => exact ⟨_, .idMemory s j hj hpj⟩
      | judge =>
        rcases Int.lt_or_le (difficulty s.event.id : Int) target with hd | hd
        · exact ⟨_, .lose s j hj hpj hd⟩
        · exact ⟨_, .win s j hj hpj hd⟩
      | leave => exact ⟨_, .unlockLeave s j hj hpj⟩
      | again => exact ⟨_, .unlockAgain s j hj hpj⟩
    cases hpi : (s.workers i).pc with
    | done => exact absurd hpi hp
    | test =>
      by_cases hc : s.globalFound = true ∨ ¬ (maxIter = 0 ∨ (s.workers i).iter < maxIter)
      · exact ⟨_, .stop s i hi hpi hc⟩
      · have h1 : s.globalFound = false := by
          cases hg : s.globalFound with
          | false => rfl
          | true => exact absurd (.inl hg) hc
        exact ⟨_, .goOn s i hi hpi h1 (Decidable.not_not.1 fun e => hc (.inr e))⟩
    | wait =>
      cases hl : s.lock with
      | none => exact ⟨_, .acquire s i hi hpi hl⟩
      | some j => exact go j (inv.held j hl).2 (inv.held j hl).1
    | recheck => exact go i hi (by rw [hpi]; rfl)
    | nonce => exact go i hi (by rw [hpi]; rfl)
    | time => exact go i hi (by rw [hpi]; rfl)
    | ident => exact go i hi (by rw [hpi]; rfl)
    | judge => exact go i hi (by rw [hpi]; rfl)
    | leave => exact go i hi (by rw [hpi]; rfl)
    | again => exact go i hi (by rw [hpi]; rfl)
  · simp only [not_or, Bool.not_eq_true] at hmain
    exact ⟨_, .create s (by omega) hmain.1⟩

/-- C143: when the call returns, the mutex it destroys is free. -/
theorem C143_unlocked {cfg : Option Config.Config} {C : Crypto} {b : Build} {target : Int} (ht : 1 ≤ target) {n maxIter : Nat}
    (hm : maxIter < 2 ^ 64) {e0 e1 : Event} {s : St} (h0 : ensureNonce cfg e0 target = .ok e1)
    (h : Steps cfg C b target n maxIter (start e1) s) (ho : Over n s) : s.lock = none := by
  obtain ⟨att, bad, hh⟩ := hist_of_steps h
  have inv := hinv_hist (by omega) hm h0 hh
  cases hl : s.lock with
  | none => rfl
  | some j =>
    obtain ⟨h1, h2⟩ := inv.held j hl
    rw [ho.2 j h2] at h1
    simp [Pc.crit] at h1

/-! ## C144: not found -/

/-- C144 (part): when "not found" is reported, every worker that met no error has tried as many nonces as it was allowed, its own
number and then every thousandth, each on the caller's event with a fresh id, and missed the target each time. -/
theorem C144_not_found_partial {cfg : Option Config.Config} {C : Crypto} {b : Build} {target : Int} (ht : 1 ≤ target) {n maxIter : Nat}
    (hm : maxIter < 2 ^ 64) (hn : n < 2 ^ 31) {e0 e1 : Event} {s : St} (h0 : ensureNonce cfg e0 target = .ok e1) {att : Nat → List Event}
    {bad : Nat → Bool} (h : Hist cfg C b target n maxIter (start e1) att bad s) (hs : NotFound n s) {i : Nat} (hi : i < n) (hb : bad i = false) :
    0 < maxIter ∧ (att i).length = maxIter ∧ ∀ k ek, (att i)[k]? = some ek →
      Candidate C b e0 target ((i + 1000 * k) % 2 ^ 64) ek ∧ (difficulty ek.id : Int) < target := by
  have inv := hinv_hist (by omega) hm h0 h
  obtain ⟨s1, s2, s3, s4⟩ := hs
  obtain ⟨c, k⟩ := inv.ok i
  have hg : s.globalFound = false := by
    cases hg : s.globalFound with
    | false => rfl
    | true =>
      rcases inv.flag hg with hf | ⟨j, hj, hf⟩
      · rw [s1] at hf; simp at hf
      · rw [s4 j (by omega)] at hf; simp at hf
  rcases k.ended (s3 i hi) (s4 i hi) hb with he | he
  · rw [hg] at he; simp at he
  · exact ⟨by omega, he.2, fun m ek hk => ⟨(k.tries (by omega) m ek hk).1, (k.tries (by omega) m ek hk).2 (s4 i hi)⟩⟩

/-- C144 fails: "not found" is also reported when the only worker ran out of memory before its first attempt. -/
theorem C144_memory_refuted : ∃ e1 att bad s, ensureNonce none toyNote 3 = .ok e1 ∧
    Hist none zeroCrypto (.cjson id fun _ => []) 3 1 5 (start e1) att bad s ∧ NotFound 1 s ∧ ∀ i, att i = [] := by
  have h0 : ensureNonce none toyNote 3 = .ok { toyNote with tags := [[c!"nonce", c!"0", c!"3"]] } := by
    decide +kernel
  have h1 := Hist.step .start (Step.create (cfg := none) (C := zeroCrypto) (b := .cjson id fun _ => []) (target := 3) (n := 1)
      (maxIter := 5) (start { toyNote with tags := [[c!"nonce", c!"0", c!"3"]] }) (by decide) rfl)
  have h2 := h1.step (.goOn _ 0 (by decide) rfl rfl (Or.inr (by decide)))
  have h3 := h2.step (.acquire _ 0 (by decide) rfl rfl)
  have h4 := h3.step (.recheck _ 0 (by decide) rfl)
  have h5 := h4.step (.nonceMemory _ 0 _ (by decide) rfl .same)
  have h6 := h5.step (.unlockLeave _ 0 (by decide) rfl)
  refine ⟨_, _, _, _, h0, h6, ⟨rfl, rfl, ?_, ?_⟩, ?_⟩
  · intro i hi
    have : i = 0 := by omega
    subst this
    rfl
  · intro i hi
    have : i = 0 := by omega
    subst this
    rfl
  · intro i
    by_cases hi : i = 0
    · subst hi; rfl
    · simp [tried, St.set, start, hi]

/-! ## C145: data races -/

/-- C145 (part): no schedule lets two workers use the event at the same time if one of them writes to it. -/
theorem C145_event_partial {cfg : Option Config.Config} {C : Crypto} {b : Build} {target : Int} (ht : 1 ≤ target) {n maxIter : Nat}
    {e0 e1 : Event} {s : St} (h0 : ensureNonce cfg e0 target = .ok e1) (h : Steps cfg C b target n maxIter (start e1) s) :
    ¬ Race target s .event := by
  obtain ⟨a1, a2⟩ := ensureNonce_ok (by omega) h0
  have inv := inv_steps (by omega) (inv_start C b a1 a2) h
  rintro ⟨i, j, hij, -, -, hw, ht⟩
  have hi : (s.workers i).pc.writes = true := by
    rcases hw with e | e | e <;> rw [e] <;> rfl
  have hj : (s.workers j).pc.crit = true := by
    rcases ht with (e | e | e) | e <;> rw [e] <;> rfl
  rw [(writer_alone inv hi).1 j (Ne.symm hij)] at hj
  simp at hj

/-- C145 (part): the only unordered use of the shared flag among the workers is its reading in the loop condition. -/
theorem C145_flag_partial {cfg : Option Config.Config} {C : Crypto} {b : Build} {target : Int} (ht : 1 ≤ target) {n maxIter : Nat}
    {e0 e1 : Event} {s : St} (h0 : ensureNonce cfg e0 target = .ok e1) (h : Steps cfg C b target n maxIter (start e1) s) {i j : Nat}
    (hij : i ≠ j) (hw : writes target s i .flag) (hj : touches target s j .flag) : (s.workers j).pc = .test := by
  obtain ⟨a1, a2⟩ := ensureNonce_ok (by omega) h0
  have inv := inv_steps (by omega) (inv_start C b a1 a2) h
  have hi : (s.workers i).pc.writes = true := by rw [hw.1]; rfl
  have hc := (writer_alone inv hi).1 j (Ne.symm hij)
  rcases hj with e | e | e
  · rw [e.1] at hc; simp [Pc.crit] at hc
  · exact e
  · rw [e] at hc; simp [Pc.crit] at hc

/-- C145 fails: one worker writes the flag under the lock while another reads it without. -/
theorem C145_flag_refuted : ∃ e1 s, ensureNonce none toyNote 3 = .ok e1 ∧
    Steps none zeroCrypto (.cjson id fun _ => []) 3 2 5 (start e1) s ∧ Race 3 s .flag := by
  have h0 : ensureNonce none toyNote 3 = .ok { toyNote with tags := [[c!"nonce", c!"0", c!"3"]] } := by
    decide +kernel
  have h1 := (Steps.refl _).tail (Step.create (cfg := none) (C := zeroCrypto) (b := .cjson id fun _ => []) (target := 3) (n := 2)
      (maxIter := 5) (start { toyNote with tags := [[c!"nonce", c!"0", c!"3"]] }) (by decide) rfl)
  have h2 := h1.tail (.create _ (by decide) rfl)
  have h3 := h2.tail (.goOn _ 0 (by decide) rfl rfl (Or.inr (by decide)))
  have h4 := h3.tail (.acquire _ 0 (by decide) rfl rfl)
  have h5 := h4.tail (.recheck _ 0 (by decide) rfl)
  have h6 := h5.tail (.setNonce _ 0 { toyNote with tags := [[c!"nonce", c!"0", c!"3"]] } (by decide) rfl (by decide +kernel))
  have h7 := h6.tail (.setTime _ 0 7 (by decide) rfl)
  have h8 := h7.tail (.setId _ 0 { toyNote with tags := [[c!"nonce", c!"0", c!"3"]], createdAt := 7 } (by decide) rfl rfl)
  exact ⟨_, _, h0, h8, 0, 1, by decide, by decide, by decide, ⟨rfl, by decide +kernel⟩, .inr (.inl rfl)⟩

/-! ## C146: every nonce once -/

theorem nonceText_of {old : List (List Bytes)} {e : Event} {x : Nat} {target : Int} (h : NonceTags old e.tags x target) :
    nonceText e = some (Num.decNat x) := by
  have key : ∀ (pre : List (List Bytes)) (rest : List Bytes) (post : List (List Bytes)), (∀ t ∈ pre, t.head? ≠ some (c!"nonce")) →
      ((pre ++ (c!"nonce" :: Num.decNat x :: rest) :: post).find? isNonce).bind (fun t => t[1]?) = some (Num.decNat x) := by
    intro pre rest post hp
    have : pre.find? isNonce = none := by
      rw [List.find?_eq_none]
      intro t ht
      simpa [isNonce] using hp t ht
    rw [List.find?_append, this]
    rfl
  unfold nonceText
  rcases h with ⟨h1, h2⟩ | ⟨pre, v, rest, post, h1, h2, h3⟩
  · rw [h2]; exact key old _ [] h1
  · rw [h3]; exact key pre _ post h2

/-- C146 (part): with at most a thousand workers, no nonce is tried twice. -/
theorem C146_distinct_partial {cfg : Option Config.Config} {C : Crypto} {b : Build} {target : Int} (ht : 1 ≤ target) {n maxIter : Nat}
    (hm : maxIter < 2 ^ 64) (hn : n ≤ 1000) {e0 e1 : Event} {s : St} (h0 : ensureNonce cfg e0 target = .ok e1) {att : Nat → List Event}
    {bad : Nat → Bool} (h : Hist cfg C b target n maxIter (start e1) att bad s) (hl : ∀ i < n, (att i).length ≤ 2 ^ 54) {i j k m : Nat}
    (hi : i < n) (hj : j < n) {ek em : Event} (hk : (att i)[k]? = some ek) (he : (att j)[m]? = some em) (hne : i ≠ j ∨ k ≠ m) :
    nonceText ek ≠ nonceText em := by
  have inv := hinv_hist (by omega) hm h0 h
  obtain ⟨c1, k1⟩ := inv.ok i
  obtain ⟨c2, k2⟩ := inv.ok j
  have l1 := (List.getElem?_eq_some_iff.1 hk).1
  have l2 := (List.getElem?_eq_some_iff.1 he).1
  have b1 := hl i hi
  have b2 := hl j hj
  rw [nonceText_of (k1.tries (by omega) k ek hk).1.tags, nonceText_of (k2.tries (by omega) m em he).1.tags]
  intro hc
  have := Num.decNat_inj (Option.some.inj hc)
  rw [Nat.mod_eq_of_lt (by omega), Nat.mod_eq_of_lt (by omega)] at this
  omega

/-- A hash that reaches no target. -/
def oneCrypto : Crypto :=
  ⟨fun _ => List.replicate 32 255, fun _ => none, fun _ _ _ => none, fun _ => false, fun _ _ _ => false⟩

/-- The note with a nonce. -/
def noted (v : Bytes) : Event := { toyNote with tags := [[c!"nonce", v, c!"3"]] }

/-- Workers created, none has run. -/
def fresh (e : Event) (k : Nat) : St := ⟨e, false, none, k, false, fun i => ⟨.test, i, 0, false, 0⟩⟩

theorem created {cfg : Option Config.Config} {C : Crypto} {b : Build} {target : Int} {n maxIter : Nat} {e1 : Event} :
    ∀ k, k ≤ n → Hist cfg C b target n maxIter (start e1) (fun _ => []) (fun _ => false) (fresh e1 k)
  | 0, _ => .start
  | k + 1, hk => by
    have h := (created (cfg := cfg) (C := C) (b := b) (target := target) (n := n) (maxIter := maxIter) (e1 := e1) k (by omega)).step
      (t := fresh e1 (k + 1)) (.create (fresh e1 k) hk rfl)
    have a1 : (fun i => [] ++ tried (fresh e1 k) (fresh e1 (k + 1)) i) = fun _ => [] := by
      funext i; exact tried_same (s := fresh e1 k) (t := fresh e1 (k + 1)) (i := i) rfl
    have a2 : (fun i => false || gaveUp (fresh e1 k) (fresh e1 (k + 1)) i) = fun _ => false := by
      funext i; exact gaveUp_same (s := fresh e1 k) (t := fresh e1 (k + 1)) (i := i) rfl
    rw [a1, a2] at h
    exact h

/-- C146 fails with more than a thousand workers: worker 1000 starts with the second nonce of worker 0. -/
theorem C146_crowd_refuted : ∃ e1 att bad s ek em, ensureNonce none toyNote 3 = .ok e1 ∧
    Hist none oneCrypto (.cjson id fun _ => []) 3 1001 5 (start e1) att bad s ∧
    (att 0)[1]? = some ek ∧ (att 1000)[0]? = some em ∧ nonceText ek = nonceText em := by
  have h0 : ensureNonce none toyNote 3 = .ok (noted c!"0") := by decide +kernel
  have h1 := created (cfg := none) (C := oneCrypto) (b := .cjson id fun _ => []) (target := 3) (n := 1001) (maxIter := 5)
    (e1 := noted c!"0") 1001 (by omega)
  have h3 := h1.step (.goOn _ 0 (by decide) rfl rfl (Or.inr (by decide)))
  have h4 := h3.step (.acquire _ 0 (by decide) rfl rfl)
  have h5 := h4.step (.recheck _ 0 (by decide) rfl)
  have h6 := h5.step (.setNonce _ 0 (noted c!"0") (by decide) rfl (by decide +kernel))
  have h7 := h6.step (.setTime _ 0 7 (by decide) rfl)
  have h8 := h7.step (.setId _ 0 { noted c!"0" with createdAt := 7, id := List.replicate 32 255 } (by decide) rfl rfl)
  have h9 := h8.step (.lose _ 0 (by decide) rfl (by decide +kernel))
  have g1 := h9.step (.unlockAgain _ 0 (by decide) rfl)
  have g3 := g1.step (.goOn _ 0 (by decide) rfl rfl (Or.inr (by decide)))
  have g4 := g3.step (.acquire _ 0 (by decide) rfl rfl)
  have g5 := g4.step (.recheck _ 0 (by decide) rfl)
  have g6 := g5.step (.setNonce _ 0 { noted c!"1000" with createdAt := 7, id := List.replicate 32 255 } (by decide) rfl (by decide +kernel))
  have g7 := g6.step (.setTime _ 0 8 (by decide) rfl)
  have g8 := g7.step (.setId _ 0 { noted c!"1000" with createdAt := 8, id := List.replicate 32 255 } (by decide) rfl rfl)
  have g9 := g8.step (.lose _ 0 (by decide) rfl (by decide +kernel))
  have k1 := g9.step (.unlockAgain _ 0 (by decide) rfl)
  have k3 := k1.step (.goOn _ 1000 (by decide) rfl rfl (Or.inr (by decide)))
  have k4 := k3.step (.acquire _ 1000 (by decide) rfl rfl)
  have k5 := k4.step (.recheck _ 1000 (by decide) rfl)
  have k6 := k5.step (.setNonce _ 1000 { noted c!"1000" with createdAt := 8, id := List.replicate 32 255 } (by decide) rfl (by decide +kernel))
  have k7 := k6.step (.setTime _ 1000 9 (by decide) rfl)
  have k8 := k7.step (.setId _ 1000 { noted c!"1000" with createdAt := 9, id := List.replicate 32 255 } (by decide) rfl rfl)
  have k9 := k8.step (.lose _ 1000 (by decide) rfl (by decide +kernel))
  exact ⟨_, _, _, _, { noted c!"1000" with createdAt := 8, id := List.replicate 32 255 },
    { noted c!"1000" with createdAt := 9, id := List.replicate 32 255 }, h0, k9, rfl, rfl, rfl⟩

/-- A run of one worker that may try one nonce, misses and ends: it meets the hypotheses of C143, C144 and C146. -/
example : ∃ e1 att bad s, ensureNonce none toyNote 3 = .ok e1 ∧
    Hist none oneCrypto (.cjson id fun _ => []) 3 1 1 (start e1) att bad s ∧ NotFound 1 s ∧ Over 1 s ∧ bad 0 = false ∧ (att 0).length = 1 := by
  have h0 : ensureNonce none toyNote 3 = .ok (noted c!"0") := by decide +kernel
  have h1 := created (cfg := none) (C := oneCrypto) (b := .cjson id fun _ => []) (target := 3) (n := 1) (maxIter := 1)
    (e1 := noted c!"0") 1 (by omega)
  have h3 := h1.step (.goOn _ 0 (by decide) rfl rfl (Or.inr (by decide)))
  have h4 := h3.step (.acquire _ 0 (by decide) rfl rfl)
  have h5 := h4.step (.recheck _ 0 (by decide) rfl)
  have h6 := h5.step (.setNonce _ 0 (noted c!"0") (by decide) rfl (by decide +kernel))
  have h7 := h6.step (.setTime _ 0 7 (by decide) rfl)
  have h8 := h7.step (.setId _ 0 { noted c!"0" with createdAt := 7, id := List.replicate 32 255 } (by decide) rfl rfl)
  have h9 := h8.step (.lose _ 0 (by decide) rfl (by decide +kernel))
  have g1 := h9.step (.unlockAgain _ 0 (by decide) rfl)
  have g2 := g1.step (.stop _ 0 (by decide) rfl (.inr (by decide)))
  refine ⟨_, _, _, _, h0, g2, ⟨rfl, rfl, ?_, ?_⟩, ⟨.inr rfl, ?_⟩, rfl, rfl⟩
  all_goals
    intro i hi
    have : i = 0 := by
      have h2 : i < 1 := hi
      omega
    subst this
    rfl

/-- A run of one step, from a state where the call is not over. -/
example : ∃ s, StepsN none oneCrypto (.cjson id fun _ => []) 3 1 1 (start (noted c!"0")) 1 s ∧ ¬ Over 1 s := by
  refine ⟨_, .step .start (.create _ (by decide) rfl), ?_⟩
  rintro ⟨-, h⟩
  have := h 0 (by decide)
  simp [start] at this

end Nostr.Nip13.Props
