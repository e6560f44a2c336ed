import Verif.Arena.Borrow

/-! # Property theorems: texts taken from an event, tags added and nonces set afterwards (C211)

Setting the nonce (nip13.c:131-198) writes into the array of the nonce tag. What was handed out before stays as long as there is room, also the old
nonce itself. -/

namespace Nostr.Arena.Props
open Nostr Nostr.Arena

/-! ## Specification -/

/-- What one call of `nostr_nip13_add_nonce_tag` takes at most: an array of three addresses, `nonce`, 20 digits and 10 digits, each with its zero. -/
def nonceRoom : Nat := 24 + 6 + 21 + 11

/-- From `s` to `s'`, its owner does what they like with the memory outside the event, adds tags and sets the nonce (of a nonce tag that has a
value, see C82); the calls may succeed or fail. `n` is the room that is enough for all of it. -/
inductive Onward (cfg : Option Config.Config) (s : St) : Nat → St → Prop
  | start : Onward cfg s 0 s
  | caller {n : Nat} {s1 : St} {m : Mem} : Onward cfg s n s1 → (∀ x, s1.base ≤ x → x < s1.base + s1.cap → m x = s1.mem x) →
      Onward cfg s n { s1 with mem := m }
  | add {n : Nat} {s1 s2 : St} {A : Alloc} {tagsMem : Bool} {values : Nat} {vs : List Bytes} {code : Option Err} :
      Onward cfg s n s1 → A.Valid → Given s1 values vs → addTag cfg A tagsMem s1 values vs.length = .ok (s2, code) → Onward cfg s (n + storage vs) s2
  | nonce {n : Nat} {s1 s2 : St} {A : Alloc} {tagsMem : Bool} {locals value : Nat} {target : Int} {code : Option Err} :
      Onward cfg s n s1 → A.Valid → Given s1 locals (nonceValues value target) → value < 2 ^ 64 → target < 2 ^ 31 →
      (∀ i, findNonce s1.mem s1.tags 0 = .ok (some i) → 2 ≤ (s1.tags.getD i (0, 0)).2) →
      addNonce cfg A tagsMem s1 locals value target = .ok (s2, code) → Onward cfg s (n + nonceRoom) s2

/-! ## What the calls leave as it is -/

/-- The block is where it was; what it contained is unchanged outside the arrays of the tags; the arrays are the old ones, perhaps shorter, or lie behind
what was used. At most `n` bytes have been taken. -/
structure Stays (s s' : St) (n : Nat) : Prop where
  base : s'.base = s.base
  cap : s'.cap = s.cap
  used : s.used ≤ s'.used
  taken : s'.used ≤ s.used + n
  mem : ∀ x, s.base ≤ x → x < s.base + s.used → s'.mem x = s.mem x ∨ ∃ t ∈ s.tags, t.1 ≤ x ∧ x < t.1 + 8 * t.2
  tags : ∀ t ∈ s'.tags, (∃ u ∈ s.tags, t.1 = u.1 ∧ t.2 ≤ u.2) ∨ s.base + s.used ≤ t.1

theorem Stays.refl (s : St) (n : Nat) : Stays s s n :=
  ⟨rfl, rfl, Nat.le_refl _, Nat.le_add_right _ _, fun _ _ _ => .inl rfl, fun t ht => .inl ⟨t, ht, rfl, Nat.le_refl _⟩⟩

theorem Stays.trans {s s1 s2 : St} {n k : Nat} (h : Stays s s1 n) (g : Stays s1 s2 k) : Stays s s2 (n + k) := by
  refine ⟨by rw [g.base, h.base], by rw [g.cap, h.cap], Nat.le_trans h.used g.used, ?_, fun x h1 h2 => ?_, fun t ht => ?_⟩
  · have := h.taken; have := g.taken; omega
  · have hb := h.base
    have hu := h.used
    rcases g.mem x (by omega) (by omega) with e | ⟨t, ht, e1, e2⟩
    · rw [e]; exact h.mem x h1 h2
    · rcases h.tags t ht with ⟨u, hu, f1, f2⟩ | f
      · exact .inr ⟨u, hu, by omega, by omega⟩
      · omega
  · have hb := h.base
    have hu := h.used
    rcases g.tags t ht with ⟨u, hu, f1, f2⟩ | f
    · rcases h.tags u hu with ⟨w, hw, f3, f4⟩ | f'
      · exact .inl ⟨w, hw, by omega, by omega⟩
      · exact .inr (by omega)
    · exact .inr (by omega)

theorem Stays.more {s s' : St} {n k : Nat} (h : Stays s s' n) (hk : n ≤ k) : Stays s s' k :=
  ⟨h.base, h.cap, h.used, by have := h.taken; omega, h.mem, h.tags⟩

theorem writeBytes_frame : ∀ {t : Bytes} {m m' : Mem} {a : Nat}, writeBytes m a t = .ok m' → ∀ x, x < a → m' x = m x := by
  intro t
  induction t with
  | nil => intro m m' a h x _; simp only [writeBytes, Res.ok.injEq] at h; rw [h]
  | cons b t ih =>
      intro m m' a h x hx
      unfold writeBytes at h
      split at h
      · rw [ih h x (by omega), if_neg (by omega)]
      · simp at h

theorem ensure_stays {A : Alloc} {s : St} {n : Nat} (hs : s.cap < 2 ^ 63) (hr : s.used + n ≤ s.cap) : ensure A s n = .ok (some s) := by
  unfold ensure
  rw [Nat.mod_eq_of_lt (by omega), if_pos hr]

theorem strdup_stays {A : Alloc} {s : St} {t : Bytes} {r : Option (Nat × St)} (hs : s.cap < 2 ^ 63) (hr : s.used + (t.length + 1) ≤ s.cap)
    (h : strdup A s t = .ok r) : ∃ p s', r = some (p, s') ∧ Stays s s' (t.length + 1) ∧ s'.tags = s.tags := by
  unfold strdup at h
  rw [ensure_stays hs hr, Res.bind_ok] at h
  simp only [] at h
  obtain ⟨m, hm, h⟩ := Res.bind_eq_ok.1 h
  simp only [Res.ok.injEq] at h
  refine ⟨_, _, h.symm, ⟨rfl, rfl, Nat.le_add_right _ _, Nat.le_refl _, fun x _ h2 => .inl (writeBytes_frame hm x h2),
    fun u hu => .inl ⟨u, hu, rfl, Nat.le_refl _⟩⟩, rfl⟩

theorem getD_mem {l : List (Nat × Nat)} {i : Nat} (h : 0 < (l.getD i (0, 0)).2) : l.getD i (0, 0) ∈ l := by
  rw [List.getD_eq_getElem?_getD] at h ⊢
  cases e : l[i]? with
  | none => rw [e] at h; simp at h
  | some t => exact List.mem_of_getElem? e

theorem setValue_stays {s s' : St} {i j p : Nat} (hj : j < (s.tags.getD i (0, 0)).2) (h : setValue s i j p = .ok s') :
    Stays s s' 0 ∧ s'.tags = s.tags := by
  unfold setValue at h
  obtain ⟨m, hm, h⟩ := Res.bind_eq_ok.1 h
  simp only [Res.ok.injEq] at h
  subst h
  refine ⟨⟨rfl, rfl, Nat.le_refl _, Nat.le_refl _, fun x _ _ => ?_, fun u hu => .inl ⟨u, hu, rfl, Nat.le_refl _⟩⟩, rfl⟩
  unfold writePtr at hm
  split at hm
  · simp only [Res.ok.injEq] at hm
    subst hm
    show (if _ then _ else _) = _ ∨ _
    split
    · rename_i hx
      exact .inr ⟨_, getD_mem (l := s.tags) (i := i) (by omega), by omega, by omega⟩
    · exact .inl rfl
  · simp at hm

theorem mem_set {l : List (Nat × Nat)} {i : Nat} {x t : Nat × Nat} (h : t ∈ l.set i x) : t ∈ l ∨ t = x := by
  rcases List.mem_or_eq_of_mem_set h with h | h
  · exact .inl h
  · exact .inr h

theorem expand_stays {A : Alloc} {s : St} {i : Nat} {r : Option St} (hi : i < s.tags.length) (hs : s.cap < 2 ^ 63) (hr : s.used + 24 ≤ s.cap)
    (h : expand A s i = .ok r) : ∃ s', r = some s' ∧ Stays s s' 24 ∧ (s'.tags.getD i (0, 0)).2 = 3 := by
  unfold expand at h
  rw [ensure_stays hs hr, Res.bind_ok] at h
  simp only [] at h
  obtain ⟨p0, _, h⟩ := Res.bind_eq_ok.1 h
  obtain ⟨m1, h1, h⟩ := Res.bind_eq_ok.1 h
  obtain ⟨p1, _, h⟩ := Res.bind_eq_ok.1 h
  obtain ⟨m2, h2, h⟩ := Res.bind_eq_ok.1 h
  obtain ⟨m3, h3, h⟩ := Res.bind_eq_ok.1 h
  simp only [Res.ok.injEq] at h
  refine ⟨_, h.symm, ⟨rfl, rfl, Nat.le_add_right _ _, Nat.le_refl _, fun x _ hx => .inl ?_, fun t ht => ?_⟩, ?_⟩
  · show m3 x = _
    rw [writePtr_frame h3 x (by omega), writePtr_frame h2 x (by omega), writePtr_frame h1 x hx]
  · rcases mem_set ht with ht | rfl
    · exact .inl ⟨t, ht, rfl, Nat.le_refl _⟩
    · exact .inr (Nat.le_refl _)
  · show ((s.tags.set i _).getD i _).2 = 3
    rw [List.getD_eq_getElem?_getD, List.getElem?_set_self hi]
    rfl

theorem setTarget_stays {A : Alloc} {s s' : St} {i : Nat} {t : Bytes} {code : Option Err} (hs : s.cap < 2 ^ 63) (hr : s.used + (t.length + 1) ≤ s.cap)
    (hc : 3 ≤ (s.tags.getD i (0, 0)).2) (h : setTarget A s i t = .ok (s', code)) : Stays s s' (t.length + 1) := by
  unfold setTarget at h
  obtain ⟨r, h1, h⟩ := Res.bind_eq_ok.1 h
  obtain ⟨p, s1, rfl, a1, a2⟩ := strdup_stays hs hr h1
  simp only [] at h
  obtain ⟨s2, h2, h⟩ := Res.bind_eq_ok.1 h
  simp only [Res.ok.injEq, Prod.mk.injEq] at h
  obtain ⟨b1, _⟩ := setValue_stays (by rw [a2]; omega) h2
  rw [← h.1]
  exact a1.trans b1

theorem updateNonce_stays {A : Alloc} {s s' : St} {i : Nat} {nonce : Bytes} {target : Option Bytes} {code : Option Err} (hs : s.cap < 2 ^ 63)
    (hn : nonce.length ≤ 20) (ht : ∀ t, target = some t → t.length ≤ 10) (hr : s.used + nonceRoom ≤ s.cap) (hc : 2 ≤ (s.tags.getD i (0, 0)).2)
    (h : updateNonce A s i nonce target = .ok (s', code)) : Stays s s' nonceRoom := by
  unfold nonceRoom at hr ⊢
  unfold updateNonce at h
  obtain ⟨r, h1, h⟩ := Res.bind_eq_ok.1 h
  obtain ⟨p, s1, rfl, a1, a2⟩ := strdup_stays hs (by omega) h1
  simp only [] at h
  obtain ⟨s2, h2, h⟩ := Res.bind_eq_ok.1 h
  obtain ⟨b1, b2⟩ := setValue_stays (by rw [a2]; omega) h2
  have c := a1.trans b1
  have hcap : s2.cap = s.cap := c.cap
  have hused := c.taken
  have hi : i < s2.tags.length := by
    rw [b2, a2]
    by_cases hi : i < s.tags.length
    · exact hi
    · rw [List.getD_eq_getElem?_getD, List.getElem?_eq_none (by omega)] at hc
      simp at hc
  cases target with
  | none =>
      simp only [Res.ok.injEq, Prod.mk.injEq] at h
      rw [← h.1]
      have hlast : Stays s2 { s2 with tags := s2.tags.set i ((s2.tags.getD i (0, 0)).1, 2) } 0 := by
        refine ⟨rfl, rfl, Nat.le_refl _, Nat.le_refl _, fun _ _ _ => .inl rfl, fun t ht => ?_⟩
        rcases mem_set ht with ht | rfl
        · exact .inl ⟨t, ht, rfl, Nat.le_refl _⟩
        · have hc2 : 2 ≤ (s2.tags.getD i (0, 0)).2 := by rw [b2, a2]; exact hc
          exact .inl ⟨_, getD_mem (l := s2.tags) (i := i) (by omega), rfl, hc2⟩
      exact (c.trans hlast).more (by omega)
  | some t =>
      have htl := ht t rfl
      simp only [] at h
      by_cases h3 : (s2.tags.getD i (0, 0)).2 < 3
      · rw [if_pos h3] at h
        obtain ⟨r2, h4, h⟩ := Res.bind_eq_ok.1 h
        obtain ⟨s3, rfl, d1, d2⟩ := expand_stays hi (by omega) (by omega) h4
        simp only [] at h
        have d3 := d1.taken
        have d4 := d1.cap
        exact ((c.trans d1).trans (setTarget_stays (t := t) (by omega) (by omega) (by omega) h)).more (by omega)
      · rw [if_neg h3] at h
        exact (c.trans (setTarget_stays (t := t) (by omega) (by omega) (by omega) h)).more (by omega)

theorem append_stays {tagsMem : Bool} {s s' : St} {values count strings : Nat} {code : Option Err}
    (h : append tagsMem s values count strings = .ok (s', code)) : Stays s s' (8 * count + strings) := by
  obtain ⟨f1, f2, f3, f4, _, f6, _⟩ := append_frame h
  refine ⟨f1, f2, f3, f4, fun x _ h2 => .inl (f6 x h2), fun t ht => ?_⟩
  unfold append at h
  have same : ∀ s1 : St, s1.tags = s.tags → ∀ c, (Res.ok (s1, c) : Res (St × Option Err)) = .ok (s', code) →
      (∃ u ∈ s.tags, t.1 = u.1 ∧ t.2 ≤ u.2) ∨ s.base + s.used ≤ t.1 := by
    intro s1 h1 c e
    simp only [Res.ok.injEq, Prod.mk.injEq] at e
    rw [← e.1, h1] at ht
    exact .inl ⟨t, ht, rfl, Nat.le_refl _⟩
  by_cases ht0 : tagsMem = false
  · rw [if_pos ht0] at h; exact same s rfl _ h
  · rw [if_neg ht0] at h
    unfold alloc at h
    by_cases h1 : s.used > s.cap ∨ 8 * count > s.cap - s.used
    · rw [if_pos h1] at h; exact same s rfl _ h
    · rw [if_neg h1] at h
      simp only [] at h
      by_cases h2 : s.used + 8 * count > s.cap ∨ strings > s.cap - (s.used + 8 * count)
      · rw [if_pos h2] at h
        simp only [] at h
        refine same { s with used := s.used + 8 * count } rfl _ h
      · rw [if_neg h2] at h
        simp only [] at h
        obtain ⟨m, hm, h⟩ := Res.bind_eq_ok.1 h
        simp only [Res.ok.injEq, Prod.mk.injEq] at h
        rw [← h.1] at ht
        rcases List.mem_append.1 ht with ht | ht
        · exact .inl ⟨t, ht, rfl, Nat.le_refl _⟩
        · rw [List.mem_singleton] at ht
          subst ht
          exact .inr (Nat.le_refl _)

theorem addTag_stays {cfg : Option Config.Config} {A : Alloc} {tagsMem : Bool} {s s' : St} {values : Nat} {vs : List Bytes} {code : Option Err}
    (hsm : s.cap < 2 ^ 63) (hg : Given s values vs) (hr : s.used + storage vs ≤ s.cap)
    (h : addTag cfg A tagsMem s values vs.length = .ok (s', code)) : Stays s s' (storage vs) := by
  have same : ∀ c, (Res.ok (s, c) : Res (St × Option Err)) = .ok (s', code) → Stays s s' (storage vs) := by
    intro c e
    simp only [Res.ok.injEq, Prod.mk.injEq] at e
    rw [← e.1]
    exact Stays.refl s _
  unfold addTag at h
  by_cases h0 : values = 0 ∨ vs.length = 0
  · rw [if_pos h0] at h; exact same _ h
  rw [if_neg h0] at h
  by_cases h1 : cfg.any (fun c => decide (s.tags.length ≥ c.maxTags)) = true
  · rw [if_pos h1] at h; exact same _ h
  rw [if_neg h1] at h
  by_cases h2 : vs.length > sizeMax / 8
  · rw [if_pos h2] at h; exact same _ h
  rw [if_neg h2] at h
  obtain ⟨_, ps, hl, hsrc⟩ := hg
  have hz := stringsSize_ok hsrc 0
  have hzl : (ps.zip vs).length = vs.length := by simp [hl]
  rw [hzl, room_zip hl] at hz
  rcases hz with hz | hz
  · rw [hz] at h
    simp only [Nat.zero_add] at h
    have hst : 8 * vs.length + (vs.map fun v => v.length + 1).sum = storage vs := rfl
    by_cases h3 : 8 * vs.length > sizeMax - (vs.map fun v => v.length + 1).sum
    · rw [if_pos h3] at h; exact same _ h
    rw [if_neg h3] at h
    unfold place at h
    rw [hst] at h
    rw [if_neg (by omega)] at h
    exact append_stays h
  · rw [hz.1] at h; exact same _ h

theorem decNat_digits {n : Nat} (h : n < 2 ^ 64) : (Num.decNat n).length ≤ 20 :=
  Num.decNat_length (by omega) (by omega)

theorem addNonce_stays {cfg : Option Config.Config} {A : Alloc} {tagsMem : Bool} {s s' : St} {locals value : Nat} {target : Int} {code : Option Err}
    (hsm : s.cap < 2 ^ 63) (hg : Given s locals (nonceValues value target)) (hv : value < 2 ^ 64) (ht : target < 2 ^ 31)
    (hc : ∀ i, findNonce s.mem s.tags 0 = .ok (some i) → 2 ≤ (s.tags.getD i (0, 0)).2) (hr : s.used + nonceRoom ≤ s.cap)
    (h : addNonce cfg A tagsMem s locals value target = .ok (s', code)) : Stays s s' nonceRoom := by
  have hd := decNat_digits hv
  unfold addNonce at h
  obtain ⟨r, h1, h⟩ := Res.bind_eq_ok.1 h
  cases r with
  | some i =>
      simp only [] at h
      refine updateNonce_stays hsm hd (fun t e => ?_) hr (hc i h1) h
      by_cases hp : target > 0
      · rw [if_pos hp, Option.some.injEq] at e
        rw [← e]
        exact (target_length hp ht).2
      · rw [if_neg hp] at e; simp at e
  | none =>
      simp only [] at h
      have hl : (nonceValues value target).length = if target > 0 then 3 else 2 := by
        unfold nonceValues; split <;> rfl
      rw [← hl] at h
      have hst : storage (nonceValues value target) ≤ nonceRoom := by
        unfold storage nonceRoom nonceValues
        by_cases hp : target > 0
        · have := (target_length hp ht).2
          rw [if_pos hp]
          simp only [List.length_cons, List.length_nil, List.map_cons, List.map_nil, List.sum_cons, List.sum_nil]
          omega
        · rw [if_neg hp]
          simp only [List.length_cons, List.length_nil, List.map_cons, List.map_nil, List.sum_cons, List.sum_nil]
          omega
      exact (addTag_stays hsm hg (by omega) h).more hst

/-- A text that lies in the used part of the block and in no array. -/
structure Held (s : St) (p : Nat) (v : Bytes) : Prop where
  str : StrAt s.mem p v
  lo : s.base ≤ p
  hi : p + (v.length + 1) ≤ s.base + s.used
  apart : ∀ t ∈ s.tags, Apart t.1 (8 * t.2) p (v.length + 1)

theorem Held.stays {s s' : St} {n p : Nat} {v : Bytes} (h : Held s p v) (g : Stays s s' n) : Held s' p v := by
  have h1 := h.lo
  have h2 := h.hi
  refine ⟨h.str.frame (fun x hx1 hx2 => ?_), by rw [g.base]; exact h1, by rw [g.base]; have := g.used; omega, fun t ht => ?_⟩
  · rcases g.mem x (by omega) (by omega) with e | ⟨t, ht, e1, e2⟩
    · exact e
    · have := h.apart t ht
      unfold Apart at this
      omega
  · unfold Apart
    rcases g.tags t ht with ⟨u, hu, e1, e2⟩ | e
    · have := h.apart u hu
      unfold Apart at this
      omega
    · omega

theorem onward_stays {cfg : Option Config.Config} {s s' : St} {n : Nat} (hsm : s.cap < 2 ^ 63) (ho : Onward cfg s n s') :
    s.used + n ≤ s.cap → Stays s s' n := by
  induction ho with
  | start => intro _; exact Stays.refl s 0
  | @caller n s1 m _ hm ih =>
      intro hr
      have g := ih hr
      have gt := g.taken
      have gb := g.base
      have gc := g.cap
      exact ⟨g.base, g.cap, g.used, g.taken, fun x h1 h2 => by
        show m x = _ ∨ _
        rw [hm x (by omega) (by omega)]
        exact g.mem x h1 h2, g.tags⟩
  | add _ _ hg e ih =>
      intro hr
      have g := ih (by omega)
      have gt := g.taken
      have gc := g.cap
      exact g.trans (addTag_stays (by omega) hg (by omega) e)
  | nonce _ _ hg hv ht hc e ih =>
      intro hr
      have g := ih (by omega)
      have gt := g.taken
      have gc := g.cap
      exact g.trans (addNonce_stays (by omega) hg hv ht hc (by omega) e)

theorem handed_apart {cfg : Option Config.Config} {s : St} {ts : List (List Bytes)} (h : Hist cfg s ts) {k j a p : Nat} (ho : HandedOut s k j a p)
    {t : List Bytes} {v : Bytes} (h1 : ts[k]? = some t) (h2 : t[j]? = some v) : ∀ t ∈ s.tags, Apart t.1 (8 * t.2) p (v.length + 1) := by
  obtain ⟨os, i, tx⟩ := hist_inv h
  obtain ⟨n, ht, hj, hp⟩ := ho
  rw [i.tags, List.getElem?_map] at ht
  obtain ⟨o, hok, hot⟩ := Option.map_eq_some_iff.1 ht
  have hmem : o ∈ os := List.mem_of_getElem? hok
  simp only [Obj.tag, Prod.mk.injEq] at hot
  obtain ⟨rfl, rfl⟩ := hot
  have hrow := congrArg (fun l => l[k]?) tx
  simp only [texts, List.getElem?_map, hok, Option.map_some, h1, Option.some.injEq] at hrow
  have hcell := congrArg (fun l => l[j]?) hrow
  simp only [List.getElem?_map, h2, List.getElem?_eq_getElem hj, Option.map_some, Option.some.injEq] at hcell
  have hpa := PtrsAt.get (by simpa using hj) (i.arrays o hmem)
  have hpe := readPtr_iff.2 hpa
  rw [hp] at hpe
  simp only [Res.ok.injEq] at hpe
  have hpj : o.ptrs[j]'(by simpa using hj) = o.vals[j].1 := by simp [Obj.ptrs]
  have hlive : Live os p v := ⟨o, hmem, by
    rw [hpe, hpj, ← hcell]
    exact List.getElem_mem hj⟩
  intro u hu
  rw [i.tags] at hu
  obtain ⟨o', ho', rfl⟩ := List.mem_map.1 hu
  exact i.clear o' ho' p v hlive

/-! ## C211 -/

/-- C211, the part which is true, with nonces: a text that an event has handed out, at any time of its history, is found at the same address after
any additions of tags and settings of the nonce, successful or not, for which there is room; also the old nonce and the old target. -/
theorem C211_nonce_partial {cfg : Option Config.Config} {s s' : St} {ts : List (List Bytes)} {n : Nat} (h : Hist cfg s ts) (ho : Onward cfg s n s')
    (hr : s.used + n ≤ s.cap) {k j a p : Nat} (hh : HandedOut s k j a p) :
    ∃ t v, ts[k]? = some t ∧ t[j]? = some v ∧ readStr s'.mem (2 ^ 64) p = .ok v := by
  obtain ⟨t, v, h1, h2, h3, h4, h5, h6, h7, h8, h9, h10, h11, h12⟩ := handed h hh
  have h13 := handed_apart h hh h1 h2
  have g := onward_stays h10 ho hr
  have held : Held s p v := ⟨h3, h4, h5, h13⟩
  exact ⟨t, v, h1, h2, readStr_ok (held.stays g).str (by omega)⟩

/-- The event with the nonce tag of `Growth.lean`; the caller has written another digit, 7, where the nonce to set is taken from. -/
def m2 : St := { m0 with mem := fun x => if x = 1310 then some (.byte 0x37) else m0.mem x }

theorem histm2 : Hist none m2 [[c!"nonce", c!"0", c!"8"]] := by
  have hg : Given s0 108 [c!"nonce", c!"0", c!"8"] := given_of_check [1300, 1310, 1320] (by decide) rfl (by decide +kernel)
  have e : look (addTag none noMemory true s0 108 3) = some (none, [(4096, 3)]) := by decide +kernel
  have h := Hist.add (tagsMem := true) hist0 noMemory_valid hg (look_ok s0 e)
  rw [if_pos rfl] at h
  have hb : m0.base = 4096 := by decide +kernel
  exact Hist.caller h fun x h1 _ => if_neg (by have : m0.base ≤ x := h1; omega)

theorem set2 : look (addNonce none noMemory true m2 108 7 8) = some (none, [(4096, 3)]) := by decide +kernel

/-- The hypotheses of `C211_nonce_partial` can be met: the nonce is set to 7; the old nonce is still where it was handed out. -/
example : ∃ s', Onward none m2 nonceRoom s' ∧ readTags s'.mem s'.tags = .ok [[c!"nonce", c!"7", c!"8"]] ∧
    readStr s'.mem (2 ^ 64) 4126 = .ok (c!"0") := by
  have hg : Given m2 108 (nonceValues 7 8) := given_of_check [1300, 1310, 1320] (by decide) rfl (by decide +kernel)
  have hl : Onward none m2 (0 + nonceRoom) (after (addNonce none noMemory true m2 108 7 8) m2) :=
    .nonce .start noMemory_valid hg (by decide) (by decide)
      (fun i hi => by
        have e : findNonce m2.mem m2.tags 0 = .ok (some 0) := by decide +kernel
        rw [e] at hi
        simp only [Res.ok.injEq, Option.some.injEq] at hi
        subst hi
        decide +kernel) (look_ok m2 set2)
  have hh : HandedOut m2 0 1 4096 4126 := by
    refine ⟨3, ?_, by decide, by decide +kernel⟩
    have e1 : m2.tags = [(4096, 3)] := by decide +kernel
    rw [e1]; rfl
  obtain ⟨t, v, h1, h2, h3⟩ := C211_nonce_partial histm2 hl (by decide +kernel) hh
  simp only [List.getElem?_cons_zero, Option.some.injEq] at h1
  subst h1
  simp only [List.getElem?_cons_succ, List.getElem?_cons_zero, Option.some.injEq] at h2
  subst h2
  exact ⟨_, hl, by decide +kernel, h3⟩

end Nostr.Arena.Props
