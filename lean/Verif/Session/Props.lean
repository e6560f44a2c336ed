import Verif.Session.Spec

/-! # Property theorems: C38, C39, C40, C41, C94, C95, C96 -/

namespace Nostr.Session.Props
open Nostr Nostr.Session Nostr.Session.Spec

/-! ## C38 -/

theorem spendFirst_eq (now : Int) (m : Bytes) (a : Nat) (ps : List Perm) :
    (∀ i, ps.findIdx? (applies m) = some i → ∃ p, ps[i]? = some p ∧
      spendFirst now m a ps = (ps.set i (spend now a p).1, (spend now a p).2)) ∧
    (ps.findIdx? (applies m) = none → spendFirst now m a ps = (ps, false)) := by
  induction ps with
  | nil => simp [spendFirst]
  | cons p ps ih =>
    rw [List.findIdx?_cons]
    by_cases h : applies m p = true
    · simp [h, spendFirst]
    · simp only [h, if_false, spendFirst, Bool.false_eq_true]
      constructor
      · intro i hi
        obtain ⟨j, hj, rfl⟩ := Option.map_eq_some_iff.1 hi
        obtain ⟨q, hq, e⟩ := ih.1 j hj
        refine ⟨q, by simpa using hq, ?_⟩
        rw [e]; rfl
      · intro hi
        rw [Option.map_eq_none_iff] at hi
        rw [ih.2 hi]

theorem names_cover (m : Bytes) (ps : List Perm) : covering (ps.map Perm.name) m = ps.findIdx? (applies m) := by
  unfold covering
  rw [List.findIdx?_map]
  rfl

theorem spend_name (now : Int) (a : Nat) (p : Perm) : (spend now a p).1.name = p.name ∧
    (spend now a p).1.limit = p.limit ∧ (spend now a p).1.interval = p.interval := by
  unfold spend renew
  simp only
  split <;> split <;> simp

theorem set_names {ps : List Perm} {i : Nat} {p q : Perm} (h : ps[i]? = some p) (e : q.name = p.name) :
    (ps.set i q).map Perm.name = ps.map Perm.name := by
  rw [List.map_set, e]
  apply List.ext_getElem?
  intro j
  rw [List.getElem?_set]
  split
  · rename_i hj
    subst hj
    split
    · rw [List.getElem?_map, h]; rfl
    · rename_i hl
      rw [List.length_map] at hl
      rw [List.getElem?_eq_none (by simpa using hl)]
  · rfl

theorem check_names (now : Int) (m : Bytes) (a : Nat) (s : Slot) :
    (check now m a s).1.perms.map Perm.name = s.perms.map Perm.name ∧ (check now m a s).1.expires = s.expires := by
  unfold check
  split
  · exact ⟨rfl, rfl⟩
  · refine ⟨?_, rfl⟩
    simp only
    cases h : s.perms.findIdx? (applies m) with
    | none => rw [(spendFirst_eq now m a s.perms).2 h]
    | some i =>
      obtain ⟨p, hp, e⟩ := (spendFirst_eq now m a s.perms).1 i h
      rw [e]
      exact set_names hp (spend_name now a p).1

theorem after_names (s : Slot) (past : List Ask) :
    (after s past).perms.map Perm.name = s.perms.map Perm.name ∧ (after s past).expires = s.expires := by
  induction past with
  | nil => exact ⟨rfl, rfl⟩
  | cons a past ih =>
    simp only [after]
    rw [(check_names _ _ _ _).1, (check_names _ _ _ _).2]
    exact ih

/-- The state of a permission after the requests is what the specification says. -/
theorem after_perm {s : Slot} {i : Nat} {name : Bytes} {limit interval : Nat} {granted : Int}
    (hp : s.perms[i]? = some ⟨name, limit, granted + interval, interval, 0⟩) (hl : 0 < limit) (past : List Ask)
    (hb : ∀ a ∈ past, a.amount + limit < 2 ^ 64) :
    (after s past).perms[i]? = some ⟨name, limit,
      (period granted interval (drawing (s.perms.map Perm.name) s.expires i (answers s past))).1, interval,
      (period granted interval (drawing (s.perms.map Perm.name) s.expires i (answers s past))).2⟩ ∧
    (period granted interval (drawing (s.perms.map Perm.name) s.expires i (answers s past))).2 ≤ limit := by
  induction past with
  | nil => simpa [after, answers, drawing, period] using hp
  | cons a past ih =>
    obtain ⟨ih1, ih2⟩ := ih fun x hx => hb x (by simp [hx])
    have hba := hb a (by simp)
    obtain ⟨hn, he⟩ := after_names s past
    generalize hP : period granted interval (drawing (s.perms.map Perm.name) s.expires i (answers s past)) = P at ih1 ih2
    have hcov := names_cover a.method (after s past).perms
    rw [hn] at hcov
    simp only [after, answers, drawing, List.filter_cons]
    by_cases hx : (after s past).expires < a.now
    · have hck : check a.now a.method a.amount (after s past) = (after s past, .bad) := by
        unfold check; rw [if_pos hx]
      rw [hck]
      rw [he] at hx
      simp only [show ¬ a.now ≤ s.expires by omega, decide_false, Bool.and_false, Bool.false_eq_true, if_false]
      change _ ∧ (period granted interval (drawing _ _ _ _)).2 ≤ _
      rw [show List.filter _ (answers s past) = drawing (s.perms.map Perm.name) s.expires i (answers s past) from rfl, hP]
      exact ⟨ih1, ih2⟩
    · have hx' : a.now ≤ s.expires := by rw [he] at hx; omega
      simp only [hx', decide_true, Bool.and_true, decide_eq_true_eq]
      by_cases hc : covering (s.perms.map Perm.name) a.method = some i
      · rw [if_pos hc]
        rw [hcov] at hc
        obtain ⟨p, hp', e⟩ := (spendFirst_eq a.now a.method a.amount (after s past).perms).1 i hc
        rw [ih1] at hp'
        simp only [Option.some.injEq] at hp'
        subst hp'
        have hck : check a.now a.method a.amount (after s past) =
            ({ after s past with lastUsed := a.now, perms := (spendFirst a.now a.method a.amount (after s past).perms).1 },
              if (spendFirst a.now a.method a.amount (after s past).perms).2 then .ok else .bad) := by
          unfold check; rw [if_neg hx]
        rw [hck, e]
        simp only [period]
        rw [show List.filter _ (answers s past) = drawing (s.perms.map Perm.name) s.expires i (answers s past) from rfl, hP]
        rw [List.getElem?_set_self (by
          rcases Nat.lt_or_ge i (after s past).perms.length with h | h
          · exact h
          · rw [List.getElem?_eq_none h] at ih1; cases ih1)]
        unfold spend renew
        simp only
        by_cases hr : P.1 < a.now
        · simp only [hr, if_true, Nat.zero_add]
          rw [Nat.mod_eq_of_lt (by omega)]
          by_cases hf : limit > 0 ∧ a.amount > limit
          · rw [if_pos hf]; simp
          · rw [if_neg hf]
            simp only [if_true, decide_true, true_and]
            omega
        · simp only [hr, if_false]
          rw [Nat.mod_eq_of_lt (by omega)]
          by_cases hf : limit > 0 ∧ P.2 + a.amount > limit
          · rw [if_pos hf]
            simp only [Bool.false_eq_true, if_false, reduceCtorEq, decide_false, true_and]
            exact ih2
          · rw [if_neg hf]
            simp only [if_true, decide_true, true_and]
            omega
      · rw [if_neg hc]
        rw [show List.filter _ (answers s past) = drawing (s.perms.map Perm.name) s.expires i (answers s past) from rfl, hP]
        refine ⟨?_, ih2⟩
        unfold check
        rw [if_neg hx]
        simp only
        rw [hcov] at hc
        cases hf : (after s past).perms.findIdx? (applies a.method) with
        | none => rw [(spendFirst_eq _ _ _ _).2 hf]; exact ih1
        | some j =>
          obtain ⟨p, -, e⟩ := (spendFirst_eq a.now a.method a.amount (after s past).perms).1 j hf
          rw [e]
          simp only
          rw [List.getElem?_set_ne (by intro h; exact hc (by rw [hf, h]))]
          exact ih1

/-- C38: for a limited permission, in any history of requests whose amounts do not come near 2^64, the total
approved in the current budget period never exceeds the limit. -/
theorem C38_budget_partial {s : Slot} {i : Nat} {name : Bytes} {limit interval : Nat} {granted : Int}
    (hp : s.perms[i]? = some ⟨name, limit, granted + interval, interval, 0⟩) (hl : 0 < limit) (past : List Ask)
    (hb : ∀ a ∈ past, a.amount + limit < 2 ^ 64) :
    (period granted interval (drawing (s.perms.map Perm.name) s.expires i (answers s past))).2 ≤ limit :=
  (after_perm hp hl past hb).2

/-- C38: and a request that draws on the permission is approved exactly when it fits. -/
theorem C38_exact_partial {s : Slot} {i : Nat} {name : Bytes} {limit interval : Nat} {granted : Int}
    (hp : s.perms[i]? = some ⟨name, limit, granted + interval, interval, 0⟩) (hl : 0 < limit) (past : List Ask)
    (hb : ∀ a ∈ past, a.amount + limit < 2 ^ 64) (a : Ask) (ha : a.amount + limit < 2 ^ 64)
    (hc : covering (s.perms.map Perm.name) a.method = some i) (hx : a.now ≤ s.expires) :
    (check a.now a.method a.amount (after s past)).2 = .ok ↔
      spent granted interval (drawing (s.perms.map Perm.name) s.expires i (answers s past)) a.now + a.amount ≤ limit := by
  obtain ⟨h1, h2⟩ := after_perm hp hl past hb
  obtain ⟨hn, he⟩ := after_names s past
  have hcov := names_cover a.method (after s past).perms
  rw [hn, hc] at hcov
  obtain ⟨p, hp', e⟩ := (spendFirst_eq a.now a.method a.amount (after s past).perms).1 i hcov.symm
  rw [h1] at hp'
  simp only [Option.some.injEq] at hp'
  subst hp'
  unfold check spent
  rw [if_neg (by rw [he]; omega)]
  simp only
  rw [e]
  generalize period granted interval (drawing (s.perms.map Perm.name) s.expires i (answers s past)) = P at *
  unfold spend renew
  simp only
  by_cases hr : P.1 < a.now
  · simp only [hr, if_true, Nat.zero_add]
    rw [Nat.mod_eq_of_lt (by omega)]
    by_cases hf : limit > 0 ∧ a.amount > limit
    · rw [if_pos hf]; simp; omega
    · rw [if_neg hf]; simp; omega
  · simp only [hr, if_false]
    rw [Nat.mod_eq_of_lt (by omega)]
    by_cases hf : limit > 0 ∧ P.2 + a.amount > limit
    · rw [if_pos hf]; simp; omega
    · rw [if_neg hf]; simp; omega

/-- A session with a budget of 1000 for payments and one of 5 for everything else. -/
def wallet : Slot :=
  { Slot.empty with perms := [⟨c!"pay", 1000, 60, 60, 0⟩, ⟨c!"*", 5, 60, 60, 0⟩], expires := 3600, active := true }

example : wallet.perms[0]? = some ⟨c!"pay", 1000, 0 + (60 : Nat), 60, 0⟩ ∧
    answers wallet [⟨70, c!"pay", 900⟩, ⟨11, c!"get", 5⟩, ⟨10, c!"pay", 400⟩, ⟨5, c!"pay", 700⟩] =
      [(⟨70, c!"pay", 900⟩, true), (⟨11, c!"get", 5⟩, true), (⟨10, c!"pay", 400⟩, false), (⟨5, c!"pay", 700⟩, true)] ∧
    covering (wallet.perms.map Perm.name) (c!"get") = some 1 := by decide

/-- C38 is false for amounts near 2^64: the sum wraps around, so the second request is approved although the budget
is used up, and the budget is even refilled. -/
theorem C38_wrap_refuted :
    answers wallet [⟨7, c!"pay", 1000⟩, ⟨6, c!"pay", 2 ^ 64 - 1000⟩, ⟨5, c!"pay", 1000⟩] =
      [(⟨7, c!"pay", 1000⟩, true), (⟨6, c!"pay", 2 ^ 64 - 1000⟩, true), (⟨5, c!"pay", 1000⟩, true)] := by decide

/-! ## C40 -/

theorem cleanup_length (now : Int) (l : List Slot) : (cleanup now l).length = l.length := by simp [cleanup]

theorem tick_eq (now : Int) (t : Table) : (tick now t).slots = t.slots ∧
    (tick now t).window = (if now - t.window ≥ 1 then now else t.window) ∧
    (tick now t).count = (if now - t.window ≥ 1 then 0 else t.count) := by
  unfold tick; split <;> simp

theorem create_length (now : Int) (to : Nat) (id : Option Bytes) (c : Nat) (t : Table) :
    (create now to id c t).1.slots.length = t.slots.length := by
  unfold create
  split
  · rw [(tick_eq now t).1]
  · unfold place
    split <;> simp [cleanup_length, List.length_modify]

theorem call_length {max : Nat} {now : Int} {id : Bytes} {r : Req} {t : Table} {q : Table × Ret}
    (h : call max now id r t = .ok q) :
    q.1.slots.length = t.slots.length ∧ q.1.window = t.window ∧ q.1.count = t.count := by
  unfold call at h
  rw [Res.bind_eq_ok] at h
  obtain ⟨k, -, h⟩ := h
  cases k with
  | none => simp only [Res.ok.injEq] at h; subst h; exact ⟨rfl, rfl, rfl⟩
  | some k =>
    simp only at h
    split at h
    · simp at h
    · rw [Res.bind_eq_ok] at h
      obtain ⟨p, -, h⟩ := h
      simp only [Res.ok.injEq] at h
      subst h
      simp

/-- C40: at any time there are at most as many active sessions as were configured. -/
theorem C40_bounded (max : Nat) (es : List Ev) {t : Table} {rs : List (Ev × Ret)} (h : run (init max) es = .ok (t, rs)) :
    (t.slots.filter fun s => s.active).length ≤ max := by
  have key : ∀ (es : List Ev) (t t' : Table) rs, run t es = .ok (t', rs) → t'.slots.length = t.slots.length := by
    intro es
    induction es with
    | nil => intro t t' rs h; simp only [run, Res.ok.injEq, Prod.mk.injEq] at h; rw [h.1]
    | cons e es ih =>
      intro t t' rs h
      cases e with
      | create now to id c =>
        rw [run, Res.bind_eq_ok] at h
        obtain ⟨q, hq, h⟩ := h
        simp only [Res.ok.injEq, Prod.mk.injEq] at h
        rw [← h.1, ih _ q.1 q.2 hq, create_length]
      | call mx now id r =>
        rw [run, Res.bind_eq_ok] at h
        obtain ⟨p, hp, h⟩ := h
        rw [Res.bind_eq_ok] at h
        obtain ⟨q, hq, h⟩ := h
        simp only [Res.ok.injEq, Prod.mk.injEq] at h
        rw [← h.1, ih _ q.1 q.2 hq, (call_length hp).1]
  have := key es _ _ _ h
  rw [show (init max).slots.length = max by simp [init]] at this
  rw [← this]
  exact List.length_filter_le _ _

theorem create_cases (now : Int) (to : Nat) (id : Option Bytes) (c : Nat) (t : Table) :
    let w := if now - t.window ≥ 1 then now else t.window
    let n := if now - t.window ≥ 1 then 0 else t.count
    (create now to id c t).1.window = w ∧
    ((create now to id c t).2 = .ok → n < 10 ∧ (create now to id c t).1.count = n + 1) ∧
    n ≤ (create now to id c t).1.count ∧ (n ≤ 10 → (create now to id c t).1.count ≤ 10) := by
  obtain ⟨-, e1, e2⟩ := tick_eq now t
  intro w n
  unfold create
  rw [e2]
  change _ ∧ _
  by_cases h2 : n ≥ 10
  · rw [if_pos h2]
    refine ⟨e1, by simp, by rw [e2]; exact Nat.le_refl _, by rw [e2]; exact fun h => h⟩
  · rw [if_neg h2]
    refine ⟨e1, fun _ => ⟨by omega, rfl⟩, by simp only; omega, by simp only; omega⟩

/-- C40: while the clock does not go back, at most ten sessions are created in any second. -/
theorem C40_rate (max : Nat) (es : List Ev) {t : Table} {rs : List (Ev × Ret)} (h : run (init max) es = .ok (t, rs))
    (hpos : ∀ x ∈ createTimes es, 0 ≤ x) (hm : (createTimes es).Pairwise (· ≤ ·)) (sec : Int) :
    createdAt sec rs ≤ 10 := by
  have key : ∀ (es : List Ev) (t t' : Table) rs, run t es = .ok (t', rs) → (∀ x ∈ createTimes es, t.window ≤ x) →
      (createTimes es).Pairwise (· ≤ ·) → t.count ≤ 10 →
      (t.window ≤ sec → createdAt sec rs ≤ 10 - (if t.window = sec then t.count else 0)) ∧
      (sec < t.window → createdAt sec rs = 0) := by
    intro es
    induction es with
    | nil =>
      intro t t' rs h _ _ _
      simp only [run, Res.ok.injEq, Prod.mk.injEq] at h
      rw [← h.2]
      simp [createdAt]
    | cons e es ih =>
      intro t t' rs h hw hm hc
      cases e with
      | create now to id c =>
        rw [run, Res.bind_eq_ok] at h
        obtain ⟨q, hq, h⟩ := h
        simp only [Res.ok.injEq, Prod.mk.injEq] at h
        obtain ⟨-, rfl⟩ := h
        have hnow : t.window ≤ now := hw now (by simp [createTimes])
        have hct : createTimes (.create now to id c :: es) = now :: createTimes es := by simp [createTimes]
        rw [hct, List.pairwise_cons] at hm
        obtain ⟨c1, c2, c3, c4⟩ := create_cases now to id c t
        have hwin : (create now to id c t).1.window = now := by
          rw [c1]; split <;> omega
        obtain ⟨i1, i2⟩ := ih _ q.1 q.2 hq (by intro x hx; rw [hwin]; exact hm.1 x hx) hm.2 (c4 (by split <;> omega))
        rw [hwin] at i1 i2
        have hcount : createdAt sec ((Ev.create now to id c, (create now to id c t).2) :: q.2) =
            (if (create now to id c t).2 = .ok ∧ now = sec then 1 else 0) + createdAt sec q.2 := by
          unfold createdAt
          rw [List.filter_cons]
          generalize (create now to id c t).2 = r
          cases r <;> by_cases hh : now = sec <;> simp [hh] <;> omega
        rw [hcount]
        by_cases hs : now = sec
        · subst hs
          have i1 := i1 (Int.le_refl _)
          simp only [if_true, and_true] at i1 ⊢
          refine ⟨fun _ => ?_, fun hlt => by omega⟩
          by_cases hok : (create now to id c t).2 = .ok
          · have := c2 hok
            rw [if_pos hok]
            by_cases hww : t.window = now
            · rw [if_pos hww]
              rw [if_neg (by omega)] at this
              omega
            · rw [if_neg hww]
              rw [if_pos (by omega)] at this
              omega
          · rw [if_neg hok]
            by_cases hww : t.window = now
            · rw [if_pos hww]
              rw [if_neg (by omega)] at c3
              omega
            · rw [if_neg hww]; omega
        · rw [if_neg (by simp [hs])]
          constructor
          · intro hle
            by_cases hlt : now ≤ sec
            · have i1 := i1 hlt
              rw [if_neg hs] at i1
              rw [if_neg (by omega)]
              omega
            · have := i2 (by omega)
              rw [this]; omega
          · intro hlt
            rw [i2 (by omega)]
      | call mx now id r =>
        rw [run, Res.bind_eq_ok] at h
        obtain ⟨p, hp, h⟩ := h
        rw [Res.bind_eq_ok] at h
        obtain ⟨q, hq, h⟩ := h
        simp only [Res.ok.injEq, Prod.mk.injEq] at h
        obtain ⟨-, rfl⟩ := h
        obtain ⟨-, e1, e2⟩ := call_length hp
        have hct : createTimes (.call mx now id r :: es) = createTimes es := by simp [createTimes]
        rw [hct] at hw hm
        have hcount : createdAt sec ((Ev.call mx now id r, p.2) :: q.2) = createdAt sec q.2 := by simp [createdAt]
        rw [hcount]
        have := ih p.1 q.1 q.2 hq (by rw [e1]; exact hw) hm (by rw [e2]; exact hc)
        rw [e1, e2] at this
        exact this
  obtain ⟨h1, h2⟩ := key es _ _ _ h (by simpa [init] using hpos) hm (by simp [init])
  by_cases hs : (init max).window ≤ sec
  · have := h1 hs; omega
  · rw [h2 (by omega)]; omega

/-- C40: when the rate limit is not reached and some slot is free or its session has expired, a session is created;
afterwards no active session is expired. -/
theorem C40_reclaims {now : Int} {to : Nat} {id : Bytes} {c : Nat} {t : Table}
    (hr : t.window < now ∨ t.count < 10) (hs : ∃ s ∈ t.slots, s.active = false ∨ s.expires < now) :
    (create now to (some id) c t).2 = .ok ∧
    (∃ s ∈ (create now to (some id) c t).1.slots, s.id = id ∧ s.active = true ∧ s.conn = some c ∧ s.perms = []) ∧
    ∀ s ∈ (create now to (some id) c t).1.slots, s.active = true → now ≤ s.expires := by
  have hcl : ∀ s ∈ cleanup now t.slots, s.active = true → now ≤ s.expires := by
    intro s hs ha
    unfold cleanup at hs
    obtain ⟨s0, -, rfl⟩ := List.mem_map.1 hs
    split at ha
    · simp [release] at ha
    · rename_i h
      rw [if_neg h]
      simp only [Bool.and_eq_true, decide_eq_true_eq, not_and] at h
      have := h ha
      omega
  have hfree : ∃ k, (cleanup now t.slots).findIdx? (fun s => !s.active) = some k := by
    obtain ⟨s, hs, h⟩ := hs
    have : ((cleanup now t.slots).findIdx? fun s => !s.active).isSome := by
      rw [List.findIdx?_isSome, List.any_eq_true]
      refine ⟨if s.active && decide (s.expires < now) then release s else s, List.mem_map_of_mem hs, ?_⟩
      split
      · rfl
      · rename_i hn
        rcases h with h | h
        · simp [h]
        · simp only [Bool.and_eq_true, decide_eq_true_eq, not_and] at hn
          cases ha : s.active with
          | false => rfl
          | true => exact absurd h (hn ha)
    exact Option.isSome_iff_exists.1 this
  obtain ⟨k, hk⟩ := hfree
  obtain ⟨hlt, -⟩ := List.findIdx?_eq_some_iff_getElem.1 hk
  obtain ⟨e0, e1, e2⟩ := tick_eq now t
  have hcreate : (create now to (some id) c t).1.slots = (cleanup now t.slots).modify k (start now to id c) ∧
      (create now to (some id) c t).2 = .ok := by
    unfold create
    rw [if_neg (by rw [e2]; split <;> omega)]
    simp [place, hk]
  rw [hcreate.1, hcreate.2]
  refine ⟨rfl, ?_, ?_⟩
  · refine ⟨start now to id c (cleanup now t.slots)[k], ?_, rfl, rfl, rfl, rfl⟩
    rw [List.mem_iff_getElem?]
    refine ⟨k, ?_⟩
    rw [List.getElem?_modify_eq, List.getElem?_eq_getElem hlt]
    rfl
  · intro s hs ha
    rw [List.mem_iff_getElem?] at hs
    obtain ⟨j, hj⟩ := hs
    simp only [List.getElem?_modify] at hj
    obtain ⟨s0, h0, rfl⟩ := Option.map_eq_some_iff.1 hj
    split
    · simp only [start]; omega
    · rename_i hne
      rw [if_neg hne] at ha
      exact hcl s0 (List.mem_of_getElem? h0) ha

example : run (init 2) [.create 100 60 (some (List.replicate 64 0x61)) 1, .create 100 60 (some (List.replicate 64 0x62)) 2,
    .create 101 60 (some (List.replicate 64 0x63)) 3] = .ok (⟨[start 100 60 (List.replicate 64 0x61) 1 .empty,
      start 100 60 (List.replicate 64 0x62) 2 .empty], 101, 1⟩,
    [(.create 100 60 (some (List.replicate 64 0x61)) 1, .ok), (.create 100 60 (some (List.replicate 64 0x62)) 2, .ok),
     (.create 101 60 (some (List.replicate 64 0x63)) 3, .memory)]) := by rfl

/-! ## C41 and C94 -/

/-- The configured maximum that each addition uses. -/
def maxima (es : List Ev) : List Nat := es.filterMap fun e => match e with | .call m _ _ _ => some m | _ => none

/-- Slots whose array is large enough for the maximum `m`. -/
def Roomy (m : Nat) (t : Table) : Prop := ∀ s ∈ t.slots, (∀ c ∈ s.cap, m ≤ c) ∧ (s.cap = none → s.perms = [])

theorem roomy_mono {m m' : Nat} (h : m' ≤ m) {t : Table} (hr : Roomy m t) : Roomy m' t := by
  intro s hs
  exact ⟨fun c hc => by have := (hr s hs).1 c hc; omega, (hr s hs).2⟩

theorem roomy_create {m : Nat} (now : Int) (to : Nat) (id : Option Bytes) (c : Nat) {t : Table} (hr : Roomy m t) :
    Roomy m (create now to id c t).1 := by
  have hcl : ∀ s ∈ cleanup now t.slots, (∀ c ∈ s.cap, m ≤ c) ∧ (s.cap = none → s.perms = []) := by
    intro s hs
    obtain ⟨s0, h0, rfl⟩ := List.mem_map.1 hs
    split
    · simp [release]
    · exact hr s0 h0
  unfold create
  split
  · intro s hs
    rw [(tick_eq now t).1] at hs
    exact hr s hs
  · unfold place
    split
    · exact hcl
    · exact hcl
    · intro s hs
      rw [List.mem_iff_getElem?] at hs
      obtain ⟨j, hj⟩ := hs
      simp only [List.getElem?_modify] at hj
      obtain ⟨s0, h0, rfl⟩ := Option.map_eq_some_iff.1 hj
      have := hcl s0 (List.mem_of_getElem? h0)
      split
      · exact ⟨this.1, fun _ => rfl⟩
      · exact this

theorem roomy_body {m : Nat} {now : Int} {r : Req} {s : Slot} (h1 : ∀ c ∈ s.cap, m ≤ c) (h2 : s.cap = none → s.perms = []) :
    ∃ q, body m now r s = .ok q ∧ (∀ c ∈ q.1.cap, m ≤ c) ∧ (q.1.cap = none → q.1.perms = []) := by
  cases r with
  | add n l i =>
    simp only [body, add]
    split
    · exact ⟨_, rfl, h1, h2⟩
    · rename_i hlt
      have : s.cap.getD m ≥ m := by
        cases hc : s.cap with
        | none => simp
        | some c => exact h1 c (by rw [hc]; rfl)
      rw [if_neg (by omega)]
      exact ⟨_, rfl, by simpa using this, by simp⟩
  | check mt a =>
    refine ⟨_, rfl, ?_⟩
    unfold check
    split
    · exact ⟨h1, h2⟩
    · refine ⟨h1, fun h => ?_⟩
      simp only at h ⊢
      rw [h2 h]
      rfl
  | get => refine ⟨_, rfl, ?_⟩; unfold getConn; split <;> exact ⟨h1, h2⟩
  | extend n => exact ⟨_, rfl, h1, h2⟩
  | destroy => exact ⟨_, rfl, by simp [release], by simp [release]⟩

/-- C41: as long as the configured maximum is never raised and session ids have at least 63 characters, no history of
calls writes outside a permission array or reads outside an id. -/
theorem C41_no_raise_partial (max : Nat) (es : List Ev) (hm : (maxima es).Pairwise (· ≥ ·))
    (hid : ∀ m now id r, .call m now id r ∈ es → 63 ≤ id.length) : run (init max) es ≠ .ub := by
  have key : ∀ (es : List Ev) (t : Table), (maxima es).Pairwise (· ≥ ·) → (∀ m ∈ maxima es, Roomy m t) →
      (∀ m now id r, .call m now id r ∈ es → 63 ≤ id.length) → run t es ≠ .ub := by
    intro es
    induction es with
    | nil => intro t _ _ _; simp [run]
    | cons e es ih =>
      intro t hm hr hid
      have hid' : ∀ m now id r, .call m now id r ∈ es → 63 ≤ id.length := fun m now id r h => hid m now id r (by simp [h])
      cases e with
      | create now to id c =>
        have hmx : maxima (.create now to id c :: es) = maxima es := by simp [maxima]
        rw [hmx] at hm hr
        rw [run]
        intro hu
        rw [Res.bind_eq_ub] at hu
        rcases hu with hu | ⟨_, _, hu⟩
        · exact ih _ hm (fun m h => roomy_create now to id c (hr m h)) hid' hu
        · simp at hu
      | call mx now id r =>
        have hmx : maxima (.call mx now id r :: es) = mx :: maxima es := by simp [maxima]
        rw [hmx, List.pairwise_cons] at hm
        rw [hmx] at hr
        have hroom := hr mx (by simp)
        have hc : ∃ q, call mx now id r t = .ok q ∧ Roomy mx q.1 := by
          unfold call findSlot
          have := hid mx now id r (by simp)
          rw [if_neg (by omega)]
          simp only [Res.bind_ok]
          cases hf : t.slots.findIdx? (fun s => s.active && decide (s.id = (id ++ [0]).take 64)) with
          | none => exact ⟨_, rfl, hroom⟩
          | some k =>
            obtain ⟨hlt, -⟩ := List.findIdx?_eq_some_iff_getElem.1 hf
            simp only [List.getElem?_eq_getElem hlt]
            obtain ⟨q, hq, h1, h2⟩ := roomy_body (now := now) (r := r) (hroom _ (List.getElem_mem hlt)).1 (hroom _ (List.getElem_mem hlt)).2
            rw [hq]
            refine ⟨_, rfl, ?_⟩
            intro s hs
            rcases List.mem_or_eq_of_mem_set hs with h | h
            · exact hroom s h
            · rw [h]; exact ⟨h1, h2⟩
        obtain ⟨q, hq, hrq⟩ := hc
        rw [run, hq]
        simp only [Res.bind_ok]
        intro hu
        rw [Res.bind_eq_ub] at hu
        rcases hu with hu | ⟨_, _, hu⟩
        · exact ih _ hm.2 (fun m h => roomy_mono (hm.1 m h) hrq) hid' hu
        · simp at hu
  exact key es _ hm (by
    intro m _ s hs
    have := List.eq_of_mem_replicate hs
    rw [this]
    simp [Slot.empty]) hid

/-- An id. -/
def sid : Bytes := List.replicate 64 0x61

/-- C41 is false: the array is allocated for the maximum configured at that time; after the maximum is raised the next
permission is written behind it. -/
theorem C41_raise_refuted (name : Bytes) : run (init 1) [.create 100 60 (some sid) 1, .call 1 100 sid (.add name 0 0),
    .call 2 100 sid (.add name 0 0)] = .ub := by rfl

example : run (init 1) [.create 100 60 (some sid) 1, .call 2 100 sid (.add (c!"a") 0 0), .call 2 100 sid (.add (c!"b") 0 0),
    .call 1 100 sid (.add (c!"c") 0 0)] ≠ .ub :=
  C41_no_raise_partial 1 _ (by decide) (by
    intro m now id r h
    simp only [List.mem_cons, Ev.call.injEq, reduceCtorEq, false_or, List.not_mem_nil, or_false] at h
    rcases h with h | h | h <;> rw [h.2.2.1] <;> decide)

/-- C94 is false: a call with a session id of fewer than 63 characters reads beyond its end as soon as a session is
active. -/
theorem C94_short_id_refuted (id : Bytes) (hid : id.length < 63) (max : Nat) (now : Int) (r : Req) :
    run (init 1) [.create 100 60 (some sid) 1, .call max now id r] = .ub := by
  have h1 : run (init 1) [.create 100 60 (some sid) 1, .call max now id r] =
      (run ⟨[start 100 60 sid 1 .empty], 100, 1⟩ [.call max now id r] >>= fun q =>
        .ok (q.1, (.create 100 60 (some sid) 1, .ok) :: q.2)) := by rfl
  rw [h1, run, call, findSlot, if_pos ⟨by omega, start 100 60 sid 1 .empty, by simp, rfl⟩]
  rfl

/-- C94: an id of 63 characters or more that belongs to no active session is refused, and nothing changes. -/
theorem C94_unknown_partial {id : Bytes} (hid : 63 ≤ id.length) {t : Table}
    (h : ∀ s ∈ t.slots, s.active = true → s.id ≠ (id ++ [0]).take 64) (max : Nat) (now : Int) (r : Req) :
    call max now id r t = .ok (t, .bad) := by
  have : t.slots.findIdx? (fun s => s.active && decide (s.id = (id ++ [0]).take 64)) = none := by
    rw [List.findIdx?_eq_none_iff]
    intro s hs
    cases ha : s.active with
    | false => rfl
    | true => simpa using h s hs ha
  simp [call, findSlot, this, show ¬ (id.length + 1 < 64) by omega]

/-! ## C95 and C96 -/

/-- C95 is false: the connection returned for a session is freed when the session ends, here because it expired and
somebody else created one, while the caller still holds the pointer. -/
theorem C95_dangling_refuted : ∃ t rs, run (init 1) [.create 100 60 (some sid) 1, .call 32 160 sid .get,
      .create 161 60 (some (List.replicate 64 0x62)) 2] = .ok (t, rs) ∧
    rs.map Prod.snd = [.ok, .conn (some 1), .ok] ∧ ∀ s ∈ t.slots, s.conn ≠ some 1 :=
  ⟨_, _, rfl, rfl, by decide⟩

/-- C96: an expired session is refused by the calls that use it. -/
theorem C96_expired_partial {now : Int} {s : Slot} (h : s.expires < now) (m : Bytes) (a : Nat) :
    check now m a s = (s, .bad) ∧ getConn now s = (s, .bad) := by
  unfold check getConn
  rw [if_pos h, if_pos h]
  exact ⟨rfl, rfl⟩

example : wallet.expires < 3601 := by decide

/-- C96 is false: an expired session can be extended and used again. -/
theorem C96_revived_refuted : ∃ t rs, run (init 1) [.create 100 60 (some sid) 1, .call 32 1000 sid .get,
      .call 32 1000 sid (.extend 5000), .call 32 1000 sid .get] = .ok (t, rs) ∧
    rs.map Prod.snd = [.ok, .bad, .ok, .conn (some 1)] := ⟨_, _, rfl, rfl⟩

end Nostr.Session.Props
