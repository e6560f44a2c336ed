import Verif.Nip13.ParallelSpec
import Verif.Nip13.Lemmas

/-! # Invariants of parallel mining: what the workers have tried -/

namespace Nostr.Nip13
open Nostr Nostr.Event Spec

/-- What is true of worker `i` at any time. `g` is the shared flag. -/
structure WOk (C : Crypto) (b : Build) (target : Int) (maxIter : Nat) (e0 : Event) (g : Bool) (i : Nat) (w : Worker) (att : List Event)
    (bad : Bool) (c : Nat) : Prop where
  iter : w.iter = c % 2 ^ 64
  nonce : i < 2 ^ 64 → w.nonce = (i + 1000 * c) % 2 ^ 64
  count : att.length = c + if w.pc = .again ∨ w.found = true then 1 else 0
  bound : maxIter ≠ 0 → c ≤ maxIter
  busy : maxIter ≠ 0 → w.pc ≠ .test → w.pc ≠ .leave → w.pc ≠ .done → c < maxIter
  tries : i < 2 ^ 64 → ∀ k ek, att[k]? = some ek → Candidate C b e0 target ((i + 1000 * k) % 2 ^ 64) ek ∧
    (w.found = false → (difficulty ek.id : Int) < target)
  left : w.pc = .leave → w.found = false → bad = false → g = true
  ended : w.pc = .done → w.found = false → bad = false → g = true ∨ (maxIter ≠ 0 ∧ att.length = maxIter)
  badEnd : bad = true → (w.pc = .leave ∨ w.pc = .done) ∧ w.found = false
  foundEnd : w.found = true → w.pc = .leave ∨ w.pc = .done

theorem WOk.mono {C : Crypto} {b : Build} {target : Int} {maxIter : Nat} {e0 : Event} {g g' : Bool} {i : Nat} {w : Worker} {att : List Event}
    {bad : Bool} {c : Nat} (h : WOk C b target maxIter e0 g i w att bad c) (hg : g = true → g' = true) :
    WOk C b target maxIter e0 g' i w att bad c :=
  ⟨h.iter, h.nonce, h.count, h.bound, h.busy, h.tries, fun a b c => hg (h.left a b c), fun a b c => (h.ended a b c).imp hg id,
    h.badEnd, h.foundEnd⟩

/-- A move of the program counter among the stages of an attempt. -/
theorem WOk.move {C : Crypto} {b : Build} {target : Int} {maxIter : Nat} {e0 : Event} {g : Bool} {i : Nat} {w : Worker} {att : List Event}
    {bad : Bool} {c : Nat} (h : WOk C b target maxIter e0 g i w att bad c) (p : Pc)
    (h1 : w.pc ≠ .leave ∧ w.pc ≠ .done ∧ w.pc ≠ .again) (h2 : p ≠ .leave ∧ p ≠ .done ∧ p ≠ .again)
    (h3 : maxIter ≠ 0 → p ≠ .test → c < maxIter) : WOk C b target maxIter e0 g i { w with pc := p } att bad c := by
  have hb : bad = false := by
    cases hb : bad with
    | false => rfl
    | true => rcases (h.badEnd hb).1 with h | h <;> simp_all
  have hf : w.found = false := by
    cases hb : w.found with
    | false => rfl
    | true => rcases h.foundEnd hb with h | h <;> simp_all
  refine ⟨h.iter, h.nonce, ?_, h.bound, fun a b _ _ => h3 a b, h.tries, fun a => absurd a h2.1, fun a => absurd a h2.2.1, ?_, ?_⟩
  · rw [h.count]; simp [hf, h1, h2]
  · rw [hb]; simp
  · simp [hf]

/-- Leaving. -/
theorem WOk.leave {C : Crypto} {b : Build} {target : Int} {maxIter : Nat} {e0 : Event} {g : Bool} {i : Nat} {w : Worker} {att : List Event}
    {bad : Bool} {c : Nat} (h : WOk C b target maxIter e0 g i w att bad c) (bad' : Bool)
    (h1 : w.pc ≠ .leave ∧ w.pc ≠ .done ∧ w.pc ≠ .again) (h3 : bad' = false → g = true) :
    WOk C b target maxIter e0 g i { w with pc := .leave } att bad' c := by
  have hf : w.found = false := by
    cases hb : w.found with
    | false => rfl
    | true => rcases h.foundEnd hb with h | h <;> simp_all
  refine ⟨h.iter, h.nonce, ?_, h.bound, by simp, h.tries, fun _ _ => h3, by simp, ?_, ?_⟩
  · rw [h.count]; simp [hf, h1]
  · simp [hf]
  · simp

/-- The invariant of a run. -/
structure HInv (C : Crypto) (b : Build) (target : Int) (n maxIter : Nat) (e0 : Event) (att : Nat → List Event) (bad : Nat → Bool) (s : St) :
    Prop where
  inv : Inv C b target e0 s
  started : s.started ≤ n
  held : ∀ i, s.lock = some i → (s.workers i).pc.crit = true ∧ i < s.started
  idle : ∀ i, s.started ≤ i → (s.workers i).pc = .test
  flag : s.globalFound = true → s.failed = true ∨ ∃ i, i < s.started ∧ (s.workers i).found = true
  ok : ∀ i, ∃ c, WOk C b target maxIter e0 s.globalFound i (s.workers i) (att i) (bad i) c

theorem hinv_start {C : Crypto} {b : Build} {target : Int} {n maxIter : Nat} {e0 e1 : Event} (h : Inv C b target e0 (start e1)) :
    HInv C b target n maxIter e0 (fun _ => []) (fun _ => false) (start e1) := by
  refine ⟨h, by simp [start], by simp [start], by simp [start], by simp [start], fun i => ⟨0, ?_⟩⟩
  refine ⟨rfl, fun hi => ?_, by simp [start], by simp, by simp [start], by simp, by simp [start], by simp [start], by simp, by simp [start]⟩
  simp only [start]
  omega

theorem tried_same {s t : St} {i : Nat} (h : (t.workers i).pc = (s.workers i).pc) : tried s t i = [] := by
  unfold tried
  rw [h, if_neg]
  rintro ⟨h1, h2⟩
  exact h2 h1

theorem gaveUp_same {s t : St} {i : Nat} (h : (t.workers i).pc = (s.workers i).pc) : gaveUp s t i = false := by
  unfold gaveUp
  rw [h]
  cases (s.workers i).pc <;> rfl

theorem tried_not {s t : St} {i : Nat} (h : (s.workers i).pc ≠ .judge) : tried s t i = [] := by
  unfold tried
  rw [if_neg]
  rintro ⟨h1, -⟩
  exact h h1

theorem gaveUp_not {s t : St} {i : Nat} (h : (t.workers i).pc ≠ .leave ∨ ((s.workers i).pc ≠ .nonce ∧ (s.workers i).pc ≠ .ident)) :
    gaveUp s t i = false := by
  unfold gaveUp
  rcases h with h | ⟨h1, h2⟩
  · simp [h]
  · simp [h1, h2]

/-- A step of worker `i`: only its own account has to be shown. -/
theorem hinv_worker {C : Crypto} {b : Build} {target : Int} {n maxIter : Nat} {e0 : Event} {att : Nat → List Event} {bad : Nat → Bool}
    {s t : St} (h : HInv C b target n maxIter e0 att bad s) (hi : Inv C b target e0 t) {i : Nat} {w : Worker} (hs : i < s.started)
    (e1 : t.started = s.started) (e2 : t.failed = s.failed) (e3 : ∀ j, t.workers j = if j = i then w else s.workers j)
    (e4 : s.globalFound = true → t.globalFound = true) (e5 : t.globalFound = true → s.globalFound = true ∨ w.found = true)
    (e6 : (s.workers i).found = true → w.found = true)
    (e7 : ∀ j, t.lock = some j → (j = i ∧ w.pc.crit = true) ∨ (j ≠ i ∧ s.lock = some j))
    (e8 : ∃ c, WOk C b target maxIter e0 t.globalFound i w (att i ++ tried s t i) (bad i || gaveUp s t i) c) :
    HInv C b target n maxIter e0 (fun i => att i ++ tried s t i) (fun i => bad i || gaveUp s t i) t := by
  have same : ∀ j, j ≠ i → t.workers j = s.workers j := fun j hj => by rw [e3, if_neg hj]
  have own : t.workers i = w := by rw [e3, if_pos rfl]
  refine ⟨hi, by rw [e1]; exact h.started, ?_, ?_, ?_, ?_⟩
  · intro j hj
    rcases e7 j hj with ⟨rfl, hc⟩ | ⟨hne, hl⟩
    · rw [own, e1]; exact ⟨hc, hs⟩
    · rw [same j hne, e1]; exact h.held j hl
  · intro j hj
    rw [e1] at hj
    rw [same j (by omega)]
    exact h.idle j hj
  · intro hg
    rcases e5 hg with hg | hg
    · rcases h.flag hg with hf | ⟨j, hj, hf⟩
      · left; rw [e2]; exact hf
      · right
        refine ⟨j, by rw [e1]; exact hj, ?_⟩
        by_cases hji : j = i
        · subst hji; rw [own]; exact e6 hf
        · rw [same j hji]; exact hf
    · exact .inr ⟨i, by rw [e1]; exact hs, by rw [own]; exact hg⟩
  · intro j
    by_cases hj : j = i
    · subst hj; rw [own]; exact e8
    · obtain ⟨c, hc⟩ := h.ok j
      refine ⟨c, ?_⟩
      rw [tried_same (by rw [same j hj]), gaveUp_same (by rw [same j hj]), same j hj, List.append_nil, Bool.or_false]
      exact hc.mono e4

theorem hinv_step {cfg : Option Config.Config} {C : Crypto} {b : Build} {target : Int} (ht : target > 0) {n maxIter : Nat}
    (hm : maxIter < 2 ^ 64) {e0 : Event} {att : Nat → List Event} {bad : Nat → Bool} {s t : St}
    (h : HInv C b target n maxIter e0 att bad s) (hs : Step cfg C b target n maxIter s t) :
    HInv C b target n maxIter e0 (fun i => att i ++ tried s t i) (fun i => bad i || gaveUp s t i) t := by
  have hi := inv_step ht h.inv hs
  have lockI : ∀ i, (s.workers i).pc.crit = true → ∀ j, s.lock = some j → j = i := by
    intro i hc j hj
    have := h.inv.lock i hc
    rw [hj] at this
    exact Option.some.inj this
  have main : ∀ t : St, t.workers = s.workers → (fun i => att i ++ tried s t i) = att ∧ (fun i => bad i || gaveUp s t i) = bad := by
    intro t e
    constructor
    · funext i; rw [tried_same (by rw [e]), List.append_nil]
    · funext i; rw [gaveUp_same (by rw [e]), Bool.or_false]
  cases hs with
  | create hlt hf =>
    obtain ⟨m1, m2⟩ := main { s with started := s.started + 1 } rfl
    rw [m1, m2]
    exact ⟨hi, hlt, fun i hl => ⟨(h.held i hl).1, by have := (h.held i hl).2; simp only; omega⟩,
      fun i hl => h.idle i (by simp only at hl; omega),
      fun hg => (h.flag hg).imp id fun ⟨i, a, b⟩ => ⟨i, by simp only; omega, b⟩, h.ok⟩
  | createFails hlt hf =>
    obtain ⟨m1, m2⟩ := main { s with failed := true, globalFound := true } rfl
    rw [m1, m2]
    exact ⟨hi, h.started, h.held, h.idle, fun _ => .inl rfl, fun i => (h.ok i).imp fun c hc => hc.mono fun _ => rfl⟩
  | stop i hlt hp hc =>
    refine hinv_worker h hi hlt rfl rfl (fun _ => rfl) id .inl id ?_ ?_
    · intro j hj
      by_cases he : j = i
      · subst he; have := (h.held j hj).1; rw [hp] at this; simp [Pc.crit] at this
      · exact .inr ⟨he, hj⟩
    · obtain ⟨c, k⟩ := h.ok i
      refine ⟨c, ?_⟩
      rw [tried_not (by rw [hp]; simp), gaveUp_not (.inr (by rw [hp]; simp)), List.append_nil, Bool.or_false]
      have hf : (s.workers i).found = false := by
        cases hf : (s.workers i).found with
        | false => rfl
        | true => rcases k.foundEnd hf with e | e <;> rw [hp] at e <;> simp at e
      have hcount := k.count
      rw [hp, hf] at hcount
      simp only [reduceCtorEq, Bool.false_eq_true, or_self, if_false, Nat.add_zero] at hcount
      refine ⟨k.iter, k.nonce, by simp [hf, hcount], k.bound, by simp, k.tries, by simp, ?_, ?_, by simp⟩
      · intro _ _ _
        rcases hc with hc | hc
        · exact .inl hc
        · right
          have h1 : maxIter ≠ 0 := fun e => hc (.inl e)
          have h2 : ¬ (s.workers i).iter < maxIter := fun e => hc (.inr e)
          have h3 := k.bound h1
          refine ⟨h1, ?_⟩
          rw [k.iter, Nat.mod_eq_of_lt (by omega)] at h2
          omega
      · intro _; exact ⟨.inr rfl, hf⟩
  | goOn i hlt hp hg hc =>
    refine hinv_worker h hi hlt rfl rfl (fun _ => rfl) id .inl id ?_ ?_
    · intro j hj
      by_cases he : j = i
      · subst he; have := (h.held j hj).1; rw [hp] at this; simp [Pc.crit] at this
      · exact .inr ⟨he, hj⟩
    · obtain ⟨c, k⟩ := h.ok i
      refine ⟨c, ?_⟩
      rw [tried_not (by rw [hp]; simp), gaveUp_not (.inr (by rw [hp]; simp)), List.append_nil, Bool.or_false]
      refine k.move .wait (by rw [hp]; simp) (by simp) ?_
      intro h1 _
      have h3 := k.bound h1
      rcases hc with hc | hc
      · exact absurd hc h1
      · rw [k.iter, Nat.mod_eq_of_lt (by omega)] at hc
        exact hc
  | acquire i hlt hp hl =>
    refine hinv_worker h hi hlt rfl rfl (fun _ => rfl) id .inl id ?_ ?_
    · intro j hj
      simp only [set_lock, Option.some.injEq] at hj
      exact .inl ⟨hj.symm, rfl⟩
    · obtain ⟨c, k⟩ := h.ok i
      refine ⟨c, ?_⟩
      rw [tried_not (by rw [hp]; simp), gaveUp_not (.inr (by rw [hp]; simp)), List.append_nil, Bool.or_false]
      exact k.move .recheck (by rw [hp]; simp) (by simp) fun h1 _ => k.busy h1 (by rw [hp]; simp) (by rw [hp]; simp) (by rw [hp]; simp)
  | recheck i hlt hp =>
    refine hinv_worker h hi hlt rfl rfl (fun _ => rfl) id .inl id ?_ ?_
    · intro j hj
      refine .inl ⟨lockI i (by rw [hp]; rfl) j hj, ?_⟩
      simp only
      split <;> rfl
    · obtain ⟨c, k⟩ := h.ok i
      refine ⟨c, ?_⟩
      rw [tried_not (by rw [hp]; simp), gaveUp_not (.inr (by rw [hp]; simp)), List.append_nil, Bool.or_false]
      by_cases hg : s.globalFound = true
      · rw [if_pos hg]
        exact k.leave (bad i) (by rw [hp]; simp) fun _ => hg
      · rw [if_neg hg]
        exact k.move .nonce (by rw [hp]; simp) (by simp) fun h1 _ => k.busy h1 (by rw [hp]; simp) (by rw [hp]; simp) (by rw [hp]; simp)
  | setNonce i e hlt hp ha =>
    refine hinv_worker h hi hlt rfl rfl (fun _ => rfl) id .inl id ?_ ?_
    · exact fun j hj => .inl ⟨lockI i (by rw [hp]; rfl) j hj, rfl⟩
    · obtain ⟨c, k⟩ := h.ok i
      refine ⟨c, ?_⟩
      rw [tried_not (by rw [hp]; simp), gaveUp_not (.inl (by simp)), List.append_nil, Bool.or_false]
      exact k.move .time (by rw [hp]; simp) (by simp) fun h1 _ => k.busy h1 (by rw [hp]; simp) (by rw [hp]; simp) (by rw [hp]; simp)
  | nonceFails i x hlt hp ha =>
    refine hinv_worker h hi hlt rfl rfl (fun _ => rfl) id .inl id ?_ ?_
    · exact fun j hj => .inl ⟨lockI i (by rw [hp]; rfl) j hj, rfl⟩
    · obtain ⟨c, k⟩ := h.ok i
      refine ⟨c, ?_⟩
      rw [tried_not (by rw [hp]; simp), List.append_nil]
      exact k.leave _ (by rw [hp]; simp) (by simp [gaveUp, hp])
  | setTime i u hlt hp =>
    refine hinv_worker h hi hlt rfl rfl (fun _ => rfl) id .inl id ?_ ?_
    · exact fun j hj => .inl ⟨lockI i (by rw [hp]; rfl) j hj, rfl⟩
    · obtain ⟨c, k⟩ := h.ok i
      refine ⟨c, ?_⟩
      rw [tried_not (by rw [hp]; simp), gaveUp_not (.inl (by simp)), List.append_nil, Bool.or_false]
      exact k.move .ident (by rw [hp]; simp) (by simp) fun h1 _ => k.busy h1 (by rw [hp]; simp) (by rw [hp]; simp) (by rw [hp]; simp)
  | setId i e hlt hp ha =>
    refine hinv_worker h hi hlt rfl rfl (fun _ => rfl) id .inl id ?_ ?_
    · exact fun j hj => .inl ⟨lockI i (by rw [hp]; rfl) j hj, rfl⟩
    · obtain ⟨c, k⟩ := h.ok i
      refine ⟨c, ?_⟩
      rw [tried_not (by rw [hp]; simp), gaveUp_not (.inl (by simp)), List.append_nil, Bool.or_false]
      exact k.move .judge (by rw [hp]; simp) (by simp) fun h1 _ => k.busy h1 (by rw [hp]; simp) (by rw [hp]; simp) (by rw [hp]; simp)
  | idFails i x hlt hp ha =>
    refine hinv_worker h hi hlt rfl rfl (fun _ => rfl) id .inl id ?_ ?_
    · exact fun j hj => .inl ⟨lockI i (by rw [hp]; rfl) j hj, rfl⟩
    · obtain ⟨c, k⟩ := h.ok i
      refine ⟨c, ?_⟩
      rw [tried_not (by rw [hp]; simp), List.append_nil]
      exact k.leave _ (by rw [hp]; simp) (by simp [gaveUp, hp])
  | nonceMemory i e hlt hp ha =>
    refine hinv_worker h hi hlt rfl rfl (fun _ => rfl) id .inl id ?_ ?_
    · exact fun j hj => .inl ⟨lockI i (by rw [hp]; rfl) j hj, rfl⟩
    · obtain ⟨c, k⟩ := h.ok i
      refine ⟨c, ?_⟩
      rw [tried_not (by rw [hp]; simp), List.append_nil]
      exact k.leave _ (by rw [hp]; simp) (by simp [gaveUp, hp])
  | idMemory i hlt hp =>
    refine hinv_worker h hi hlt rfl rfl (fun _ => rfl) id .inl id ?_ ?_
    · exact fun j hj => .inl ⟨lockI i (by rw [hp]; rfl) j hj, rfl⟩
    · obtain ⟨c, k⟩ := h.ok i
      refine ⟨c, ?_⟩
      rw [tried_not (by rw [hp]; simp), List.append_nil]
      exact k.leave _ (by rw [hp]; simp) (by simp [gaveUp, hp])
  | win i hlt hp hd =>
    refine hinv_worker h hi hlt rfl rfl (fun _ => rfl) (fun _ => rfl) (fun _ => .inr rfl) (fun _ => rfl) ?_ ?_
    · exact fun j hj => .inl ⟨lockI i (by rw [hp]; rfl) j hj, rfl⟩
    · obtain ⟨c, k⟩ := h.ok i
      refine ⟨c, ?_⟩
      have hf : (s.workers i).found = false := (writer_alone h.inv (i := i) (by rw [hp]; rfl)).2 i
      have hb : bad i = false := by
        cases hb : bad i with
        | false => rfl
        | true => rcases (k.badEnd hb).1 with e | e <;> rw [hp] at e <;> simp at e
      have hcount := k.count
      rw [hp, hf] at hcount
      simp only [reduceCtorEq, Bool.false_eq_true, or_self, if_false, Nat.add_zero] at hcount
      rw [gaveUp_not (.inr (by rw [hp]; simp)), show tried s _ i = [s.event] by simp [tried, hp], Bool.or_false]
      refine ⟨k.iter, k.nonce, by simp [hcount], k.bound, by simp, ?_, by simp, by simp, by simp [hb], by simp⟩
      intro hi64 j ek hj
      refine ⟨?_, by simp⟩
      rcases Nat.lt_or_ge j (att i).length with hlt' | hge
      · rw [List.getElem?_append_left hlt'] at hj
        exact (k.tries hi64 j ek hj).1
      · rw [List.getElem?_append_right hge] at hj
        have : j - (att i).length = 0 := by
          rcases Nat.eq_zero_or_pos (j - (att i).length) with h0 | h0
          · exact h0
          · rw [List.getElem?_eq_none (by simp; omega)] at hj; simp at hj
        rw [this] at hj
        simp only [List.getElem?_cons_zero, Option.some.injEq] at hj
        subst hj
        have hjc : j = c := by omega
        have hn := h.inv.nonceSet i (.inr (.inr hp))
        rw [k.nonce hi64] at hn
        subst hjc
        exact ⟨h.inv.idSet i hp, hn, h.inv.same.1, h.inv.same.2, h.inv.same.3, h.inv.same.4⟩
  | lose i hlt hp hd =>
    refine hinv_worker h hi hlt rfl rfl (fun _ => rfl) id .inl id ?_ ?_
    · exact fun j hj => .inl ⟨lockI i (by rw [hp]; rfl) j hj, rfl⟩
    · obtain ⟨c, k⟩ := h.ok i
      refine ⟨c, ?_⟩
      have hf : (s.workers i).found = false := (writer_alone h.inv (i := i) (by rw [hp]; rfl)).2 i
      have hb : bad i = false := by
        cases hb : bad i with
        | false => rfl
        | true => rcases (k.badEnd hb).1 with e | e <;> rw [hp] at e <;> simp at e
      have hcount := k.count
      rw [hp, hf] at hcount
      simp only [reduceCtorEq, Bool.false_eq_true, or_self, if_false, Nat.add_zero] at hcount
      rw [gaveUp_not (.inr (by rw [hp]; simp)), show tried s _ i = [s.event] by simp [tried, hp], Bool.or_false]
      refine ⟨k.iter, k.nonce, by simp [hcount], k.bound, ?_, ?_, by simp, by simp, by simp [hb], by simp [hf]⟩
      · exact fun h1 _ _ _ => k.busy h1 (by rw [hp]; simp) (by rw [hp]; simp) (by rw [hp]; simp)
      intro hi64 j ek hj
      rcases Nat.lt_or_ge j (att i).length with hlt' | hge
      · rw [List.getElem?_append_left hlt'] at hj
        exact k.tries hi64 j ek hj
      · rw [List.getElem?_append_right hge] at hj
        have : j - (att i).length = 0 := by
          rcases Nat.eq_zero_or_pos (j - (att i).length) with h0 | h0
          · exact h0
          · rw [List.getElem?_eq_none (by simp; omega)] at hj; simp at hj
        rw [this] at hj
        simp only [List.getElem?_cons_zero, Option.some.injEq] at hj
        subst hj
        have hjc : j = c := by omega
        have hn := h.inv.nonceSet i (.inr (.inr hp))
        rw [k.nonce hi64] at hn
        subst hjc
        exact ⟨⟨h.inv.idSet i hp, hn, h.inv.same.1, h.inv.same.2, h.inv.same.3, h.inv.same.4⟩, fun _ => hd⟩
  | unlockLeave i hlt hp =>
    refine hinv_worker h hi hlt rfl rfl (fun _ => rfl) id .inl id ?_ ?_
    · intro j hj; simp at hj
    · obtain ⟨c, k⟩ := h.ok i
      refine ⟨c, ?_⟩
      rw [tried_not (by rw [hp]; simp), gaveUp_not (.inl (by simp)), List.append_nil, Bool.or_false]
      refine ⟨k.iter, k.nonce, ?_, k.bound, by simp, k.tries, by simp, ?_, ?_, by simp⟩
      · rw [k.count, hp]; simp
      · exact fun _ a b => .inl (k.left hp a b)
      · exact fun a => ⟨.inr rfl, (k.badEnd a).2⟩
  | unlockAgain i hlt hp =>
    refine hinv_worker h hi hlt rfl rfl (fun _ => rfl) id .inl id ?_ ?_
    · intro j hj; simp at hj
    · obtain ⟨c, k⟩ := h.ok i
      refine ⟨c + 1, ?_⟩
      have hf : (s.workers i).found = false := by
        cases hf : (s.workers i).found with
        | false => rfl
        | true => rcases k.foundEnd hf with e | e <;> rw [hp] at e <;> simp at e
      rw [tried_not (by rw [hp]; simp), gaveUp_not (.inl (by simp)), List.append_nil, Bool.or_false]
      refine ⟨?_, ?_, ?_, ?_, by simp, k.tries, by simp, by simp, ?_, by simp [hf]⟩
      · simp only [k.iter]; omega
      · intro a; simp only [k.nonce a]; omega
      · rw [k.count, hp]; simp [hf]
      · exact fun h1 => k.busy h1 (by rw [hp]; simp) (by rw [hp]; simp) (by rw [hp]; simp)
      · intro a; rcases (k.badEnd a).1 with e | e <;> rw [hp] at e <;> simp at e

theorem hinv_hist {cfg : Option Config.Config} {C : Crypto} {b : Build} {target : Int} (ht : target > 0) {n maxIter : Nat}
    (hm : maxIter < 2 ^ 64) {e0 e1 : Event} (h0 : ensureNonce cfg e0 target = .ok e1) {att : Nat → List Event} {bad : Nat → Bool} {s : St}
    (h : Hist cfg C b target n maxIter (start e1) att bad s) : HInv C b target n maxIter e0 att bad s := by
  obtain ⟨a1, a2⟩ := ensureNonce_ok ht h0
  induction h with
  | start => exact hinv_start (inv_start C b a1 a2)
  | step _ hs ih => exact hinv_step ht hm ih hs

end Nostr.Nip13
