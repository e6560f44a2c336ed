import Verif.Session.Props

/-! # C39: sessions under every interleaving -/

namespace Nostr.Session.Conc
open Nostr Nostr.Session

/-- What the table compares an id with: the first 64 bytes of the text. -/
def key (id : Bytes) : Bytes := (id ++ [0]).take 64

/-- The id of an empty slot. -/
def zeros : Bytes := List.replicate 64 0

/-- Specification: entry `e` has not succeeded in using the session. -/
def Idle (e : Bytes × Req × Ret) : Prop :=
  (∀ m a, e.2.1 = .check m a → e.2.2 ≠ .ok) ∧ (∀ c, e.2.2 ≠ .conn (some c))

/-- Specification: whatever was done (latest first) after a session was destroyed did not use it. -/
def Respects : List (Bytes × Req × Ret) → Prop
  | [] => True
  | e :: past => (((∃ d ∈ past, key d.1 = key e.1 ∧ d.2 = (.destroy, .ok)) → Idle e)) ∧ Respects past

/-- What holds between steps. -/
structure Inv (w : World) : Prop where
  big : ∀ t id r k, w.pc t = .waiting id r k → w.big = some t
  lock : ∀ t id r k, w.pc t = .inside id r k → w.small k = some t
  leave : ∀ t k, w.pc t = .leaving k → w.small k = some t
  slot : ∀ t id r k, w.pc t = .waiting id r k ∨ w.pc t = .inside id r k →
    key id ≠ zeros ∧ ∃ s : Slot, w.table.slots[k]? = some s ∧ s.id = key id ∧ (s.active = true ∨ (s.perms = [] ∧ s.conn = none))
  alone : ∀ t id r k (s : Slot), w.pc t = .inside id r k → w.table.slots[k]? = some s → s.active = false →
    ∀ t' id' r', w.pc t' ≠ .waiting id' r' k
  uniq : ∀ (i j : Nat) (a b : Slot), w.table.slots[i]? = some a → w.table.slots[j]? = some b → a.id = b.id → a.id ≠ zeros → i = j
  known : ∀ (k : Nat) (s : Slot), w.table.slots[k]? = some s → s.id ∈ w.ids ∧ (s.active = true → s.id ≠ zeros)
  zero : zeros ∈ w.ids
  dead : ∀ e ∈ w.log, e.2 = (.destroy, .ok) → key e.1 ∈ w.ids ∧ key e.1 ≠ zeros ∧
    ∀ (k : Nat) (s : Slot), w.table.slots[k]? = some s → s.id = key e.1 → s.active = false
  log : Respects w.log

theorem inv_start (max : Nat) : Inv (start0 max) := by
  have hs : ∀ (k : Nat) (s : Slot), (start0 max).table.slots[k]? = some s → s = Slot.empty := by
    intro k s h
    have := List.mem_of_getElem? h
    exact List.eq_of_mem_replicate this
  refine ⟨by simp [start0], by simp [start0], by simp [start0], by simp [start0], by simp [start0], ?_, ?_, by simp [start0, zeros],
    by simp [start0], trivial⟩
  · intro i j a b ha _ _ hn
    rw [hs i a ha] at hn
    exact absurd rfl hn
  · intro k s h
    rw [hs k s h]
    exact ⟨by simp [start0, Slot.empty], by simp [Slot.empty]⟩

theorem upd_self {α : Type} (f : Nat → α) (k : Nat) (v : α) : upd f k v k = v := by simp [upd]

theorem upd_ne {α : Type} (f : Nat → α) {k j : Nat} (v : α) (h : j ≠ k) : upd f k v j = f j := by simp [upd, h]

theorem found_slot {slots : List Slot} {id : Bytes} {k : Nat} (h : findSlot slots id = .ok (some k)) :
    ∃ s, slots[k]? = some s ∧ s.active = true ∧ s.id = key id := by
  unfold findSlot at h
  split at h
  · simp at h
  · simp only [Res.ok.injEq] at h
    obtain ⟨hlt, hp, -⟩ := List.findIdx?_eq_some_iff_getElem.1 h
    simp only [Bool.and_eq_true, decide_eq_true_eq] at hp
    exact ⟨slots[k], List.getElem?_eq_getElem hlt, hp.1, hp.2⟩

theorem body_id {max : Nat} {now : Int} {r : Req} {s : Slot} {q : Slot × Ret} (h : body max now r s = .ok q) :
    q.1.id = s.id ∧ (q.1.active = true → s.active = true) := by
  cases r with
  | add n l i =>
    simp only [body, add] at h
    split at h
    · simp only [Res.ok.injEq] at h; subst h; exact ⟨rfl, fun h => h⟩
    · split at h
      · simp at h
      · simp only [Res.ok.injEq] at h; subst h; exact ⟨rfl, fun h => h⟩
  | check m a =>
    simp only [body, Res.ok.injEq] at h
    subst h
    unfold check
    split <;> exact ⟨rfl, fun h => h⟩
  | get =>
    simp only [body, Res.ok.injEq] at h
    subst h
    unfold getConn
    split <;> exact ⟨rfl, fun h => h⟩
  | extend n => simp only [body, Res.ok.injEq] at h; subst h; exact ⟨rfl, fun h => h⟩
  | destroy => simp only [body, Res.ok.injEq] at h; subst h; exact ⟨rfl, by simp [release]⟩

theorem body_active {max : Nat} {now : Int} {r : Req} {s : Slot} {q : Slot × Ret} (h : body max now r s = .ok q)
    (ha : s.active = true) : q.1.active = true ∨ (r = .destroy ∧ q.1.active = false ∧ q.1.perms = [] ∧ q.1.conn = none) := by
  cases r with
  | add n l i =>
    simp only [body, add] at h
    split at h
    · simp only [Res.ok.injEq] at h; subst h; exact .inl ha
    · split at h
      · simp at h
      · simp only [Res.ok.injEq] at h; subst h; exact .inl ha
  | check m a =>
    simp only [body, Res.ok.injEq] at h
    subst h
    unfold check
    split <;> exact .inl ha
  | get =>
    simp only [body, Res.ok.injEq] at h
    subst h
    unfold getConn
    split <;> exact .inl ha
  | extend n => simp only [body, Res.ok.injEq] at h; subst h; exact .inl ha
  | destroy => simp only [body, Res.ok.injEq] at h; subst h; exact .inr ⟨rfl, rfl, rfl, rfl⟩

/-- On a slot without permissions and connection nothing can be used. -/
theorem body_idle {max : Nat} {now : Int} {r : Req} {s : Slot} {q : Slot × Ret} (h : body max now r s = .ok q)
    (h1 : s.perms = []) (h2 : s.conn = none) (id : Bytes) : Idle (id, r, q.2) := by
  cases r with
  | add n l i =>
    simp only [body, add] at h
    split at h
    · simp only [Res.ok.injEq] at h; subst h; simp [Idle]
    · split at h
      · simp at h
      · simp only [Res.ok.injEq] at h; subst h; simp [Idle]
  | check m a =>
    simp only [body, Res.ok.injEq] at h
    subst h
    unfold check
    split
    · simp [Idle]
    · rw [h1]; simp [Idle, spendFirst]
  | get =>
    simp only [body, Res.ok.injEq] at h
    subst h
    unfold getConn
    split
    · simp [Idle]
    · simp [Idle, h2]
  | extend n => simp only [body, Res.ok.injEq] at h; subst h; simp [Idle, extend]
  | destroy => simp only [body, Res.ok.injEq] at h; subst h; simp [Idle]

/-- What creating a session does to the slots. -/
theorem create_failed (now : Int) (to : Nat) (c : Nat) (t : Table) (k : Nat) (s' : Slot) (h : (create now to none c t).1.slots[k]? = some s') :
    ∃ s : Slot, t.slots[k]? = some s ∧ (s' = s ∨ (touched now t k ∧ s' = release s)) := by
  have hcl : ∀ (k : Nat) (s' : Slot), (cleanup now t.slots)[k]? = some s' → ∃ s : Slot, t.slots[k]? = some s ∧
      (s' = s ∨ (touched now t k ∧ s' = release s)) := by
    intro k s' h
    unfold cleanup at h
    rw [List.getElem?_map] at h
    obtain ⟨s, hs, rfl⟩ := Option.map_eq_some_iff.1 h
    refine ⟨s, hs, ?_⟩
    split
    · rename_i hc
      simp only [Bool.and_eq_true, decide_eq_true_eq] at hc
      exact .inr ⟨⟨s, hs, .inr hc.2⟩, rfl⟩
    · exact .inl rfl
  unfold create at h
  split at h
  · rw [(Props.tick_eq now t).1] at h
    exact ⟨s', h, .inl rfl⟩
  · unfold place at h
    split at h
    · exact hcl k s' h
    · exact hcl k s' h
    · rename_i e; cases e

theorem create_slots (now : Int) (to : Nat) (id : Bytes) (c : Nat) (t : Table) :
    (create now to (some id) c t).1.slots.length = t.slots.length ∧
    ∀ (k : Nat) (s' : Slot), (create now to (some id) c t).1.slots[k]? = some s' → ∃ s : Slot, t.slots[k]? = some s ∧
      (s' = s ∨ (touched now t k ∧ (s' = release s ∨ s'.id = id))) ∧
      (s'.id = id → s'.id ≠ s.id → ∀ (j : Nat) (s'' : Slot), (create now to (some id) c t).1.slots[j]? = some s'' → s''.id = id →
        (∀ (i : Nat) (x : Slot), t.slots[i]? = some x → x.id ≠ id) → j = k) := by
  refine ⟨Props.create_length _ _ _ _ _, ?_⟩
  have hcl : ∀ (k : Nat) (s' : Slot), (cleanup now t.slots)[k]? = some s' → ∃ s : Slot, t.slots[k]? = some s ∧
      (s' = s ∨ (touched now t k ∧ s' = release s)) := by
    intro k s' h
    unfold cleanup at h
    rw [List.getElem?_map] at h
    obtain ⟨s, hs, rfl⟩ := Option.map_eq_some_iff.1 h
    refine ⟨s, hs, ?_⟩
    split
    · rename_i hc
      simp only [Bool.and_eq_true, decide_eq_true_eq] at hc
      exact .inr ⟨⟨s, hs, .inr hc.2⟩, rfl⟩
    · exact .inl rfl
  have hid : ∀ (k : Nat) (s' : Slot), (cleanup now t.slots)[k]? = some s' → ∃ s : Slot, t.slots[k]? = some s ∧ s'.id = s.id := by
    intro k s' h
    obtain ⟨s, hs, h1⟩ := hcl k s' h
    refine ⟨s, hs, ?_⟩
    rcases h1 with rfl | ⟨-, rfl⟩ <;> rfl
  have hold : ∀ (l : List Slot), (l = t.slots ∨ l = cleanup now t.slots) → ∀ (k : Nat) (s' : Slot), l[k]? = some s' →
      ∃ s : Slot, t.slots[k]? = some s ∧ (s' = s ∨ (touched now t k ∧ (s' = release s ∨ s'.id = id))) ∧
      (s'.id = id → s'.id ≠ s.id → ∀ (j : Nat) (s'' : Slot), l[j]? = some s'' → s''.id = id →
        (∀ (i : Nat) (x : Slot), t.slots[i]? = some x → x.id ≠ id) → j = k) := by
    intro l hl k s' h
    rcases hl with rfl | rfl
    · exact ⟨s', h, .inl rfl, fun _ hne => absurd rfl hne⟩
    · obtain ⟨s, hs, h1⟩ := hcl k s' h
      refine ⟨s, hs, ?_, ?_⟩
      · rcases h1 with h1 | ⟨h1, h2⟩
        · exact .inl h1
        · exact .inr ⟨h1, .inl h2⟩
      · intro _ hne
        obtain ⟨s2, hs2, e⟩ := hid k s' h
        rw [hs] at hs2
        simp only [Option.some.injEq] at hs2
        exact absurd (by rw [e, hs2]) hne
  unfold create
  split
  · rw [(Props.tick_eq now t).1]
    exact hold _ (.inl rfl)
  · unfold place
    split
    · exact hold _ (.inr rfl)
    · exact hold _ (.inr rfl)
    · rename_i k0 i0 hk hi
      obtain rfl := Option.some.inj hi
      obtain ⟨hlt, hp, -⟩ := List.findIdx?_eq_some_iff_getElem.1 hk
      intro k s' h
      simp only [List.getElem?_modify] at h
      obtain ⟨s1, h1, rfl⟩ := Option.map_eq_some_iff.1 h
      obtain ⟨s, hs, h2⟩ := hcl k s1 h1
      refine ⟨s, hs, ?_, ?_⟩
      · by_cases he : k0 = k
        · subst he
          rw [if_pos rfl]
          refine .inr ⟨?_, .inr rfl⟩
          rw [List.getElem?_eq_getElem hlt] at h1
          simp only [Option.some.injEq] at h1
          rw [h1] at hp
          rcases h2 with rfl | ⟨ht, -⟩
          · exact ⟨s1, hs, .inl (by simpa using hp)⟩
          · exact ht
        · rw [if_neg he]
          rcases h2 with h2 | ⟨h2, h3⟩
          · exact .inl h2
          · exact .inr ⟨h2, .inl h3⟩
      · intro hne1 hne j s'' hj hjid hnew
        have hk0 : ∀ (j : Nat) (s'' : Slot), ((cleanup now t.slots).modify k0 (start now to id c))[j]? = some s'' → s''.id = id → j = k0 := by
          intro j s'' hj hjid
          rw [List.getElem?_modify] at hj
          obtain ⟨s2, h3, rfl⟩ := Option.map_eq_some_iff.1 hj
          by_cases he : k0 = j
          · exact he.symm
          · rw [if_neg he] at hjid
            obtain ⟨s3, hs3, e⟩ := hid j s2 h3
            exact absurd (e ▸ hjid) (hnew j s3 hs3)
        rw [hk0 j s'' hj hjid]
        by_cases he : k0 = k
        · exact he
        · rw [if_neg he] at hne
          obtain ⟨s3, hs3, e⟩ := hid k s1 h1
          rw [hs] at hs3
          simp only [Option.some.injEq] at hs3
          exact absurd (by rw [e, hs3]) hne

theorem inv_step {w w' : World} (hi : Inv w) (h : Step w w') : Inv w' := by
  cases h with
  | absent _ _ _ => exact hi
  | @found id r t k h1 h2 h3 =>
    obtain ⟨s, hs, ha, hid⟩ := found_slot h3
    have hne : ∀ t' id' r' k', w.pc t' ≠ .waiting id' r' k' := by
      intro t' id' r' k' hp
      have := hi.big _ _ _ _ hp
      rw [h1] at this; cases this
    have hpc : ∀ t', upd w.pc t (.waiting id r k) t' = if t' = t then .waiting id r k else w.pc t' := fun _ => rfl
    refine ⟨?_, ?_, ?_, ?_, ?_, hi.uniq, hi.known, hi.zero, hi.dead, hi.log⟩
    · intro t' id' r' k' hp
      simp only [hpc] at hp
      split at hp
      · rename_i e; rw [e]
      · exact absurd hp (hne _ _ _ _)
    · intro t' id' r' k' hp
      simp only [hpc] at hp
      split at hp
      · cases hp
      · exact hi.lock _ _ _ _ hp
    · intro t' k' hp
      simp only [hpc] at hp
      split at hp
      · cases hp
      · exact hi.leave _ _ hp
    · intro t' id' r' k' hp
      simp only [hpc] at hp
      by_cases e : t' = t
      · simp only [e, if_true, Pc.waiting.injEq, reduceCtorEq, or_false] at hp
        obtain ⟨rfl, rfl, rfl⟩ := hp
        exact ⟨by rw [← hid]; exact (hi.known k s hs).2 ha, s, hs, hid, .inl ha⟩
      · simp only [e, if_false] at hp
        exact hi.slot _ _ _ _ hp
    · intro t' id' r' k' s' hp hs' hin t'' id'' r'' hp2
      simp only [hpc] at hp hp2
      split at hp
      · cases hp
      · split at hp2
        · simp only [Pc.waiting.injEq] at hp2
          obtain ⟨-, -, rfl⟩ := hp2
          rw [hs] at hs'
          simp only [Option.some.injEq] at hs'
          rw [← hs', ha] at hin
          cases hin
        · exact hne _ _ _ _ hp2
  | @lock id r t k h1 h2 =>
    have hbig := hi.big _ _ _ _ h1
    have hne : ∀ t' id' r' k', t' ≠ t → w.pc t' ≠ .waiting id' r' k' := by
      intro t' id' r' k' hn hp
      have := hi.big _ _ _ _ hp
      rw [hbig] at this
      simp only [Option.some.injEq] at this
      exact hn this.symm
    have hpc : ∀ t', upd w.pc t (.inside id r k) t' = if t' = t then .inside id r k else w.pc t' := fun _ => rfl
    have hsm : ∀ j, upd w.small k (some t) j = if j = k then some t else w.small j := fun _ => rfl
    refine ⟨?_, ?_, ?_, ?_, ?_, hi.uniq, hi.known, hi.zero, hi.dead, hi.log⟩
    · intro t' id' r' k' hp
      simp only [hpc] at hp
      split at hp
      · cases hp
      · rename_i e; exact absurd hp (hne _ _ _ _ e)
    · intro t' id' r' k' hp
      simp only [hpc] at hp
      simp only [hsm]
      split at hp
      · rename_i e
        simp only [Pc.inside.injEq] at hp
        rw [if_pos hp.2.2.symm, e]
      · have := hi.lock _ _ _ _ hp
        split
        · rename_i e; rw [e, h2] at this; cases this
        · exact this
    · intro t' k' hp
      simp only [hpc] at hp
      simp only [hsm]
      split at hp
      · cases hp
      · have := hi.leave _ _ hp
        split
        · rename_i e; rw [e, h2] at this; cases this
        · exact this
    · intro t' id' r' k' hp
      simp only [hpc] at hp
      by_cases e : t' = t
      · simp only [e, if_true, Pc.inside.injEq, reduceCtorEq, false_or] at hp
        obtain ⟨rfl, rfl, rfl⟩ := hp
        exact hi.slot t id r k (.inl h1)
      · simp only [e, if_false] at hp
        exact hi.slot _ _ _ _ hp
    · intro t' id' r' k' s' hp hs' hin t'' id'' r'' hp2
      simp only [hpc] at hp2
      split at hp2
      · cases hp2
      · rename_i e; exact hne _ _ _ _ e hp2
  | @work id r t k s q max now h1 h2 h3 =>
    obtain ⟨hz, s0, hs0, hid, hst⟩ := hi.slot t id r k (.inr h1)
    rw [h2] at hs0
    simp only [Option.some.injEq] at hs0
    subst hs0
    obtain ⟨b1, b2⟩ := body_id h3
    have hlk := hi.lock _ _ _ _ h1
    have hlt : k < w.table.slots.length := by
      rcases Nat.lt_or_ge k w.table.slots.length with h | h
      · exact h
      · rw [List.getElem?_eq_none h] at h2; cases h2
    have hset : ∀ (j : Nat) (x : Slot), (w.table.slots.set k q.1)[j]? = some x → (j = k ∧ x = q.1) ∨ (j ≠ k ∧ w.table.slots[j]? = some x) := by
      intro j x hx
      rw [List.getElem?_set] at hx
      split at hx
      · rename_i e
        subst e
        simp only [Option.some.injEq] at hx
        exact .inl ⟨rfl, hx.symm⟩
      · rename_i e; exact .inr ⟨fun h => e h.symm, hx⟩
    have hpc : ∀ t', upd w.pc t (.leaving k) t' = if t' = t then .leaving k else w.pc t' := fun _ => rfl
    have hother : ∀ t' id' r' , t' ≠ t → w.pc t' ≠ .inside id' r' k := by
      intro t' id' r' hn hp
      have := hi.lock _ _ _ _ hp
      rw [hlk] at this
      simp only [Option.some.injEq] at this
      exact hn this.symm
    refine ⟨?_, ?_, ?_, ?_, ?_, ?_, ?_, hi.zero, ?_, ?_⟩
    · intro t' id' r' k' hp
      simp only [hpc] at hp
      split at hp
      · cases hp
      · exact hi.big _ _ _ _ hp
    · intro t' id' r' k' hp
      simp only [hpc] at hp
      split at hp
      · cases hp
      · exact hi.lock _ _ _ _ hp
    · intro t' k' hp
      simp only [hpc] at hp
      split at hp
      · rename_i e
        simp only [Pc.leaving.injEq] at hp
        rw [← hp, e]; exact hlk
      · exact hi.leave _ _ hp
    · intro t' id' r' k' hp
      simp only [hpc] at hp
      by_cases e : t' = t
      · simp [e] at hp
      · simp only [e, if_false] at hp
        obtain ⟨z', s', hs', e1, e2⟩ := hi.slot _ _ _ _ hp
        refine ⟨z', ?_⟩
        by_cases hk : k' = k
        · subst hk
          rw [h2] at hs'
          simp only [Option.some.injEq] at hs'
          subst hs'
          refine ⟨q.1, by rw [List.getElem?_set_self hlt], by rw [b1]; exact e1, ?_⟩
          have hw : w.pc t' = .waiting id' r' k' := by
            rcases hp with hp | hp
            · exact hp
            · exact absurd hp (hother _ _ _ e)
          cases ha : s.active with
          | true =>
            rcases body_active h3 ha with h | ⟨-, -, h4, h5⟩
            · exact .inl h
            · exact .inr ⟨h4, h5⟩
          | false => exact absurd hw (hi.alone _ _ _ _ _ h1 h2 ha t' id' r')
        · exact ⟨s', by rw [List.getElem?_set_ne (Ne.symm hk)]; exact hs', e1, e2⟩
    · intro t' id' r' k' s' hp hs' hin t'' id'' r'' hp2
      simp only [hpc] at hp hp2
      split at hp
      · cases hp
      · rename_i e
        split at hp2
        · cases hp2
        · rcases hset _ _ hs' with ⟨rfl, -⟩ | ⟨hk, hs'⟩
          · exact hother _ _ _ e hp
          · exact hi.alone _ _ _ _ _ hp hs' hin _ _ _ hp2
    · intro i j a b ha hb hab hn
      rcases hset _ _ ha with ⟨hik, rfl⟩ | ⟨hik, ha'⟩
      · rcases hset _ _ hb with ⟨hjk, rfl⟩ | ⟨hjk, hb'⟩
        · rw [hik, hjk]
        · rw [b1] at hab hn
          rw [hik]
          exact hi.uniq _ _ _ _ h2 hb' hab hn
      · rcases hset _ _ hb with ⟨hjk, rfl⟩ | ⟨hjk, hb'⟩
        · rw [b1] at hab
          rw [hjk]
          exact hi.uniq _ _ _ _ ha' h2 hab hn
        · exact hi.uniq _ _ _ _ ha' hb' hab hn
    · intro j x hx
      rcases hset _ _ hx with ⟨rfl, rfl⟩ | ⟨-, hx⟩
      · obtain ⟨k1, k2⟩ := hi.known _ _ h2
        exact ⟨by rw [b1]; exact k1, fun ha => by rw [b1]; exact k2 (b2 ha)⟩
      · exact hi.known _ _ hx
    · intro e he hd
      rcases List.mem_cons.1 he with rfl | he
      · simp only [Prod.mk.injEq] at hd
        obtain ⟨rfl, -⟩ := hd
        refine ⟨by rw [← hid]; exact (hi.known _ _ h2).1, hz, ?_⟩
        intro j x hx hxid
        simp only [body, Res.ok.injEq] at h3
        subst h3
        rcases hset _ _ hx with ⟨rfl, rfl⟩ | ⟨hjk, hx⟩
        · rfl
        · have := hi.uniq _ _ _ _ hx h2 (by rw [hxid, hid]) (by rw [hxid]; exact hz)
          exact absurd this hjk
      · obtain ⟨d1, d2, d3⟩ := hi.dead e he hd
        refine ⟨d1, d2, ?_⟩
        intro j x hx hxid
        rcases hset _ _ hx with ⟨rfl, rfl⟩ | ⟨-, hx⟩
        · rw [b1] at hxid
          cases hq : q.1.active with
          | false => rfl
          | true =>
            have := d3 _ _ h2 hxid
            rw [b2 hq] at this
            cases this
        · exact d3 _ _ hx hxid
    · refine ⟨?_, hi.log⟩
      rintro ⟨d, hd, e1, e2⟩
      obtain ⟨-, -, d3⟩ := hi.dead d hd e2
      have hin := d3 _ _ h2 (by rw [hid]; exact e1.symm)
      rcases hst with h | ⟨h4, h5⟩
      · rw [hin] at h; cases h
      · exact body_idle h3 h4 h5 id
  | @unlock t k h1 =>
    have hlk := hi.leave _ _ h1
    have hpc : ∀ t', upd w.pc t .idle t' = if t' = t then .idle else w.pc t' := fun _ => rfl
    have hsm : ∀ j, upd w.small k none j = if j = k then none else w.small j := fun _ => rfl
    refine ⟨?_, ?_, ?_, ?_, ?_, hi.uniq, hi.known, hi.zero, hi.dead, hi.log⟩
    · intro t' id' r' k' hp
      simp only [hpc] at hp
      split at hp
      · cases hp
      · exact hi.big _ _ _ _ hp
    · intro t' id' r' k' hp
      simp only [hpc] at hp
      split at hp
      · cases hp
      · rename_i e
        have := hi.lock _ _ _ _ hp
        simp only [hsm]
        split
        · rename_i e2
          rw [e2, hlk] at this
          simp only [Option.some.injEq] at this
          exact absurd this.symm e
        · exact this
    · intro t' k' hp
      simp only [hpc] at hp
      split at hp
      · cases hp
      · rename_i e
        have := hi.leave _ _ hp
        simp only [hsm]
        split
        · rename_i e2
          rw [e2, hlk] at this
          simp only [Option.some.injEq] at this
          exact absurd this.symm e
        · exact this
    · intro t' id' r' k' hp
      simp only [hpc] at hp
      by_cases e : t' = t
      · simp [e] at hp
      · simp only [e, if_false] at hp
        exact hi.slot _ _ _ _ hp
    · intro t' id' r' k' s' hp hs' hin t'' id'' r'' hp2
      simp only [hpc] at hp hp2
      split at hp
      · cases hp
      · split at hp2
        · cases hp2
        · exact hi.alone _ _ _ _ _ hp hs' hin _ _ _ hp2
  | @create now to id c h1 h2 h3 h4 =>
    obtain ⟨-, hc⟩ := create_slots now to id c w.table
    have hidz : id ≠ zeros := fun h => h4 (h ▸ hi.zero)
    have hnew : ∀ (i : Nat) (x : Slot), w.table.slots[i]? = some x → x.id ≠ id := fun i x hx h => h4 (h ▸ (hi.known i x hx).1)
    have hne : ∀ t' id' r' k', w.pc t' ≠ .waiting id' r' k' := by
      intro t' id' r' k' hp
      have := hi.big _ _ _ _ hp
      rw [h1] at this; cases this
    have hshape : ∀ (k : Nat) (s' : Slot), (create now to (some id) c w.table).1.slots[k]? = some s' →
        ∃ s : Slot, w.table.slots[k]? = some s ∧ (s'.id = s.id ∨ s'.id = id) ∧ (s'.id = s.id → s'.active = true → s.active = true) ∧
          (w.small k ≠ none → s' = s) := by
      intro k s' h
      obtain ⟨s, hs, h5, -⟩ := hc k s' h
      refine ⟨s, hs, ?_⟩
      rcases h5 with rfl | ⟨ht, rfl | h5⟩
      · exact ⟨.inl rfl, fun _ h => h, fun _ => rfl⟩
      · exact ⟨.inl rfl, fun _ h => by simp [release] at h, fun hn => absurd (h2 k ht) hn⟩
      · exact ⟨.inr h5, fun he => absurd (he.symm.trans h5) (hnew k s hs), fun hn => absurd (h2 k ht) hn⟩
    have hback : ∀ (k : Nat) (s : Slot), w.table.slots[k]? = some s → w.small k ≠ none → (create now to (some id) c w.table).1.slots[k]? = some s := by
      intro k s hs hn
      have hlt : k < (create now to (some id) c w.table).1.slots.length := by
        rw [Props.create_length]
        rcases Nat.lt_or_ge k w.table.slots.length with h | h
        · exact h
        · rw [List.getElem?_eq_none h] at hs; cases hs
      obtain ⟨s1, hs1, -, -, h6⟩ := hshape k _ (List.getElem?_eq_getElem hlt)
      rw [hs] at hs1
      simp only [Option.some.injEq] at hs1
      rw [List.getElem?_eq_getElem hlt, h6 hn, hs1]
    refine ⟨fun t' id' r' k' hp => absurd hp (hne _ _ _ _), hi.lock, hi.leave, ?_, ?_, ?_, ?_, List.mem_cons_of_mem _ hi.zero, ?_, hi.log⟩
    · intro t' id' r' k' hp
      rcases hp with hp | hp
      · exact absurd hp (hne _ _ _ _)
      · obtain ⟨z, s, hs, e1, e2⟩ := hi.slot t' id' r' k' (.inr hp)
        have hl := hi.lock _ _ _ _ hp
        exact ⟨z, s, hback k' s hs (by rw [hl]; simp), e1, e2⟩
    · intro t' id' r' k' s' _ _ _ t'' id'' r'' hp2
      exact hne _ _ _ _ hp2
    · intro i j a b ha hb hab hn
      obtain ⟨a0, ha0, da, -, -⟩ := hshape i a ha
      obtain ⟨b0, hb0, db, -, -⟩ := hshape j b hb
      by_cases hida : a.id = id
      · obtain ⟨x, hx, -, huniq⟩ := hc i a ha
        have := huniq hida (by
          rw [ha0] at hx
          simp only [Option.some.injEq] at hx
          rw [hida, ← hx]
          exact fun h => hnew i a0 ha0 h.symm) j b hb (by rw [← hab]; exact hida) hnew
        exact this.symm
      · have ea : a.id = a0.id := by
          rcases da with h | h
          · exact h
          · exact absurd h hida
        have eb : b.id = b0.id := by
          rcases db with h | h
          · exact h
          · exact absurd (hab.trans h) hida
        exact hi.uniq _ _ _ _ ha0 hb0 (by rw [← ea, ← eb]; exact hab) (by rw [← ea]; exact hn)
    · intro k s' hs'
      obtain ⟨s, hs, e1, e2, -⟩ := hshape k s' hs'
      rcases e1 with e1 | e1
      · refine ⟨by rw [e1]; exact List.mem_cons_of_mem _ (hi.known k s hs).1, fun ha => ?_⟩
        rw [e1]
        exact (hi.known k s hs).2 (e2 e1 ha)
      · exact ⟨by rw [e1]; simp, fun _ => by rw [e1]; exact hidz⟩
    · intro e he hd
      obtain ⟨d1, d2, d3⟩ := hi.dead e he hd
      refine ⟨List.mem_cons_of_mem _ d1, d2, ?_⟩
      intro k s' hs' hid'
      obtain ⟨s, hs, e1, e2, -⟩ := hshape k s' hs'
      rcases e1 with e1 | e1
      · cases ha : s'.active with
        | false => rfl
        | true =>
          have := d3 k s hs (by rw [← e1]; exact hid')
          rw [e2 e1 ha] at this
          cases this
      · exact absurd (by rw [← e1, hid']; exact d1) h4

  | @failed now to c h1 h2 =>
    have hc := create_failed now to c w.table
    have hne : ∀ t' id' r' k', w.pc t' ≠ .waiting id' r' k' := by
      intro t' id' r' k' hp
      have := hi.big _ _ _ _ hp
      rw [h1] at this; cases this
    have hshape : ∀ (k : Nat) (s' : Slot), (create now to none c w.table).1.slots[k]? = some s' →
        ∃ s : Slot, w.table.slots[k]? = some s ∧ s'.id = s.id ∧ (s'.active = true → s.active = true) ∧ (w.small k ≠ none → s' = s) := by
      intro k s' h
      obtain ⟨s, hs, rfl | ⟨ht, rfl⟩⟩ := hc k s' h
      · exact ⟨_, hs, rfl, fun h => h, fun _ => rfl⟩
      · exact ⟨s, hs, rfl, fun h => by simp [release] at h, fun hn => absurd (h2 k ht) hn⟩
    refine ⟨fun t' id' r' k' hp => absurd hp (hne _ _ _ _), hi.lock, hi.leave, ?_, ?_, ?_, ?_, hi.zero, ?_, hi.log⟩
    · intro t' id' r' k' hp
      rcases hp with hp | hp
      · exact absurd hp (hne _ _ _ _)
      · obtain ⟨z, s, hs, e1, e2⟩ := hi.slot t' id' r' k' (.inr hp)
        have hl := hi.lock _ _ _ _ hp
        have hlt : k' < (create now to none c w.table).1.slots.length := by
          rw [Props.create_length]
          rcases Nat.lt_or_ge k' w.table.slots.length with h | h
          · exact h
          · rw [List.getElem?_eq_none h] at hs; cases hs
        obtain ⟨s1, hs1, -, -, h6⟩ := hshape k' _ (List.getElem?_eq_getElem hlt)
        rw [hs] at hs1
        simp only [Option.some.injEq] at hs1
        exact ⟨z, s, by rw [List.getElem?_eq_getElem hlt, h6 (by rw [hl]; simp), hs1], e1, e2⟩
    · intro t' id' r' k' s' _ _ _ t'' id'' r'' hp2
      exact hne _ _ _ _ hp2
    · intro i j a b ha hb hab hn
      obtain ⟨a0, ha0, ea, -, -⟩ := hshape i a ha
      obtain ⟨b0, hb0, eb, -, -⟩ := hshape j b hb
      exact hi.uniq _ _ _ _ ha0 hb0 (by rw [← ea, ← eb]; exact hab) (by rw [← ea]; exact hn)
    · intro k s' hs'
      obtain ⟨s, hs, e1, e2, -⟩ := hshape k s' hs'
      rw [e1]
      exact ⟨(hi.known k s hs).1, fun ha => (hi.known k s hs).2 (e2 ha)⟩
    · intro e he hd
      obtain ⟨d1, d2, d3⟩ := hi.dead e he hd
      refine ⟨d1, d2, ?_⟩
      intro k s' hs' hid'
      obtain ⟨s, hs, e1, e2, -⟩ := hshape k s' hs'
      cases ha : s'.active with
      | false => rfl
      | true =>
        have := d3 k s hs (by rw [← e1]; exact hid')
        rw [e2 ha] at this
        cases this

theorem inv_reach {max : Nat} {w : World} (h : Reach max w) : Inv w := by
  induction h with
  | start => exact inv_start max
  | step _ hs ih => exact inv_step ih hs

/-- C39: under every schedule a call does its work on the session it was given, never on another one that took over
the slot, while it alone holds that slot's lock. -/
theorem C39_right_session {max : Nat} {w : World} (h : Reach max w) {t k : Nat} {id : Bytes} {r : Req}
    (hp : w.pc t = .inside id r k) :
    (∃ s : Slot, w.table.slots[k]? = some s ∧ s.id = key id) ∧
    ∀ t' id' r', w.pc t' = .inside id' r' k ∨ w.pc t' = .leaving k → t' = t := by
  have hi := inv_reach h
  obtain ⟨-, s, hs, e, -⟩ := hi.slot t id r k (.inr hp)
  refine ⟨⟨s, hs, e⟩, ?_⟩
  intro t' id' r' h'
  have h1 := hi.lock _ _ _ _ hp
  have h2 : w.small k = some t' := by
    rcases h' with h' | h'
    · exact hi.lock _ _ _ _ h'
    · exact hi.leave _ _ h'
  rw [h1] at h2
  simp only [Option.some.injEq] at h2
  exact h2.symm

/-- C39: once a session has been destroyed, every call with its id that starts later is refused. -/
theorem C39_destroyed {max : Nat} {w : World} (h : Reach max w) {id : Bytes} (hd : (id, Req.destroy, Ret.ok) ∈ w.log)
    (k : Nat) : findSlot w.table.slots id ≠ .ok (some k) := by
  intro hf
  obtain ⟨s, hs, ha, hid⟩ := found_slot hf
  have := ((inv_reach h).dead _ hd rfl).2.2 k s hs hid
  rw [ha] at this
  cases this

/-- C39: even of the calls that were under way when the session was destroyed, none that does its work afterwards
gets a payment approved or a connection. -/
theorem C39_no_use_partial {max : Nat} {w : World} (h : Reach max w) : Respects w.log := (inv_reach h).log

/-- C39: two active sessions never have the same id. -/
theorem C39_map {max : Nat} {w : World} (h : Reach max w) {i j : Nat} {a b : Slot} (hi : w.table.slots[i]? = some a)
    (hj : w.table.slots[j]? = some b) (ha : a.active = true) (he : a.id = b.id) : i = j :=
  (inv_reach h).uniq i j a b hi hj he (((inv_reach h).known i a hi).2 ha)

open Props in
/-- C39 is not true as stated: a call that found the session just before another thread destroyed it reports success
with a NULL connection. -/
theorem C39_get_refuted : ∃ w, Reach 1 w ∧ w.log = [(sid, .get, .conn none), (sid, .destroy, .ok)] := by
  have r0 := Reach.start (max := 1)
  have r1 := r0.step (.create 100 60 sid 1 rfl (by intro k _; rfl) rfl (by decide))
  have r2 := r1.step (.found (id := sid) (r := .destroy) (t := 0) (k := 0) rfl rfl rfl)
  have r3 := r2.step (.lock (id := sid) (r := .destroy) (t := 0) (k := 0) rfl rfl)
  have r4 := r3.step (.found (id := sid) (r := .get) (t := 1) (k := 0) rfl rfl rfl)
  have r5 := r4.step (.work (id := sid) (r := .destroy) (t := 0) (k := 0) 32 100 rfl rfl rfl)
  have r6 := r5.step (.unlock (t := 0) (k := 0) rfl)
  have r7 := r6.step (.lock (id := sid) (r := .get) (t := 1) (k := 0) rfl rfl)
  have r8 := r7.step (.work (id := sid) (r := .get) (t := 1) (k := 0) 32 100 rfl rfl rfl)
  exact ⟨_, r8, rfl⟩

/-! ## C97: no deadlock -/

/-- Who holds a lock is inside a call that will release it. -/
structure Held (w : World) : Prop where
  small : ∀ (k t : Nat), w.small k = some t → (∃ id r, w.pc t = .inside id r k) ∨ w.pc t = .leaving k
  big : ∀ t, w.big = some t → ∃ id r k, w.pc t = .waiting id r k

theorem held_step {w w' : World} (hi : Inv w) (hh : Held w) (h : Step w w') : Held w' := by
  cases h with
  | absent _ _ _ => exact hh
  | @found id r t k h1 h2 h3 =>
    have hpc : ∀ t', upd w.pc t (.waiting id r k) t' = if t' = t then .waiting id r k else w.pc t' := fun _ => rfl
    refine ⟨?_, ?_⟩
    · intro j t' hs
      have := hh.small j t' hs
      simp only [hpc]
      by_cases e : t' = t
      · rw [e, h2] at this; simp at this
      · simpa [e] using this
    · intro t' hb
      simp only [Option.some.injEq] at hb
      exact ⟨id, r, k, by simp [hb, upd_self]⟩
  | @lock id r t k h1 h2 =>
    have hpc : ∀ t', upd w.pc t (.inside id r k) t' = if t' = t then .inside id r k else w.pc t' := fun _ => rfl
    have hsm : ∀ j, upd w.small k (some t) j = if j = k then some t else w.small j := fun _ => rfl
    refine ⟨?_, by simp⟩
    intro j t' hs
    simp only [hsm] at hs
    split at hs
    · rename_i e
      simp only [Option.some.injEq] at hs
      exact .inl ⟨id, r, by simp [hs, e, upd_self]⟩
    · have := hh.small j t' hs
      simp only [hpc]
      by_cases e : t' = t
      · rw [e, h1] at this; simp at this
      · simpa [e] using this
  | @work id r t k s q max now h1 h2 h3 =>
    have hpc : ∀ t', upd w.pc t (.leaving k) t' = if t' = t then .leaving k else w.pc t' := fun _ => rfl
    refine ⟨?_, ?_⟩
    · intro j t' hs
      have := hh.small j t' hs
      simp only [hpc]
      by_cases e : t' = t
      · rw [e, h1] at this
        simp only [Pc.inside.injEq, reduceCtorEq, or_false] at this
        obtain ⟨_, _, _, _, rfl⟩ := this
        exact .inr (by simp [e])
      · simpa [e] using this
    · intro t' hb
      obtain ⟨id', r', k', hb⟩ := hh.big t' hb
      refine ⟨id', r', k', ?_⟩
      simp only [hpc]
      by_cases e : t' = t
      · rw [e, h1] at hb; cases hb
      · simpa [e] using hb
  | @unlock t k h1 =>
    have hpc : ∀ t', upd w.pc t .idle t' = if t' = t then .idle else w.pc t' := fun _ => rfl
    have hsm : ∀ j, upd w.small k none j = if j = k then none else w.small j := fun _ => rfl
    refine ⟨?_, ?_⟩
    · intro j t' hs
      simp only [hsm] at hs
      split at hs
      · cases hs
      · rename_i hj
        have := hh.small j t' hs
        simp only [hpc]
        by_cases e : t' = t
        · rw [e, h1] at this
          simp only [reduceCtorEq, exists_false, Pc.leaving.injEq, false_or] at this
          exact absurd this.symm hj
        · simpa [e] using this
    · intro t' hb
      obtain ⟨id', r', k', hb⟩ := hh.big t' hb
      refine ⟨id', r', k', ?_⟩
      simp only [hpc]
      by_cases e : t' = t
      · rw [e, h1] at hb; cases hb
      · simpa [e] using hb
  | create _ _ _ _ h1 _ _ _ => exact ⟨hh.small, hh.big⟩
  | failed => exact ⟨hh.small, hh.big⟩

theorem held_reach {max : Nat} {w : World} (h : Reach max w) : Held w := by
  induction h with
  | start => exact ⟨by simp [start0], by simp [start0]⟩
  | step hr hs ih => exact held_step (inv_reach hr) ih hs

/-- Specification: the stages of a call in order. -/
inductive Next : Pc → Pc → Prop
  | lock {id r k} : Next (.waiting id r k) (.inside id r k)
  | work {id r k} : Next (.inside id r k) (.leaving k)
  | done {k} : Next (.leaving k) .idle

theorem step_inside {w : World} (hi : Inv w) {t k : Nat} {id : Bytes} {r : Req} (h : w.pc t = .inside id r k) :
    ∃ w', Step w w' ∧ Next (w.pc t) (w'.pc t) := by
  obtain ⟨-, s, hs, -, -⟩ := hi.slot t id r k (.inr h)
  have hb : ∃ max now q, body max now r s = .ok q := by
    cases r with
    | add n l i => exact ⟨0, 0, _, by simp [body, add]; rfl⟩
    | check m a => exact ⟨0, 0, _, rfl⟩
    | get => exact ⟨0, 0, _, rfl⟩
    | extend n => exact ⟨0, 0, _, rfl⟩
    | destroy => exact ⟨0, 0, _, rfl⟩
  obtain ⟨m, now, q, hb⟩ := hb
  refine ⟨_, .work m now h hs hb, ?_⟩
  simp only [upd_self, h]
  exact .work

theorem step_leaving {w : World} {t k : Nat} (h : w.pc t = .leaving k) : ∃ w', Step w w' ∧ Next (w.pc t) (w'.pc t) := by
  refine ⟨_, .unlock h, ?_⟩
  simp only [upd_self, h]
  exact .done

/-- C97: whenever calls are under way, one of them can go on to its next stage; there is no deadlock. -/
theorem C97_progress {max : Nat} {w : World} (h : Reach max w) {t : Nat} (ht : w.pc t ≠ .idle) :
    ∃ t' w', Step w w' ∧ Next (w.pc t') (w'.pc t') := by
  have hi := inv_reach h
  have hh := held_reach h
  cases hp : w.pc t with
  | idle => exact absurd hp ht
  | inside id r k => exact ⟨t, step_inside hi hp⟩
  | leaving k => exact ⟨t, step_leaving hp⟩
  | waiting id r k =>
    cases hs : w.small k with
    | none =>
      refine ⟨t, _, .lock hp hs, ?_⟩
      simp only [upd_self, hp]
      exact .lock
    | some t' =>
      rcases hh.small k t' hs with ⟨id', r', h1⟩ | h1
      · exact ⟨t', step_inside hi h1⟩
      · exact ⟨t', step_leaving h1⟩

/-- C97: a thread that waits for the table waits for a call that is itself under way. -/
theorem C97_table {max : Nat} {w : World} (h : Reach max w) {t : Nat} (ht : w.big = some t) :
    ∃ id r k, w.pc t = .waiting id r k := (held_reach h).big t ht

open Props in
/-- A call that waits for the lock of a slot in which another one works. -/
example : ∃ w, Reach 1 w ∧ w.pc 0 = .inside sid .destroy 0 ∧ w.pc 1 = .waiting sid .get 0 ∧ w.small 0 = some 0 ∧
    w.big = some 1 := by
  have r0 := Reach.start (max := 1)
  have r1 := r0.step (.create 100 60 sid 1 rfl (by intro k _; rfl) rfl (by decide))
  have r2 := r1.step (.found (id := sid) (r := .destroy) (t := 0) (k := 0) rfl rfl rfl)
  have r3 := r2.step (.lock (id := sid) (r := .destroy) (t := 0) (k := 0) rfl rfl)
  have r4 := r3.step (.found (id := sid) (r := .get) (t := 1) (k := 0) rfl rfl rfl)
  exact ⟨_, r4, rfl, rfl, rfl, rfl⟩

end Nostr.Session.Conc
