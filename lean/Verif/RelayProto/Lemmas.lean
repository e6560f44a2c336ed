import Verif.RelayProto.Spec
import Verif.Event.Props

/-! # Lemmas about the relay-side event functions -/

namespace Nostr.RelayProto
open Nostr Nostr.Event Spec

theorem tagValue_of_first {tags : List (List Bytes)} {name v : Bytes} (h : FirstTag tags name v) :
    tagValue tags name = some v := by
  obtain ⟨pre, more, post, rfl, h⟩ := h
  induction pre with
  | nil => simp [tagValue]
  | cons t pre ih =>
    have ih := ih (fun t ht => h t (by simp [ht]))
    match t, h t (by simp) with
    | [], _ => simpa [tagValue] using ih
    | [_], _ => simpa [tagValue] using ih
    | n :: w :: r, hne =>
      have : n ≠ name := fun hn => hne w r (by rw [hn])
      simpa [tagValue, this] using ih

theorem tagValue_none {tags : List (List Bytes)} {name : Bytes} (h : ∀ w r, (name :: w :: r) ∉ tags) :
    tagValue tags name = none := by
  induction tags with
  | nil => rfl
  | cons t ts ih =>
    have ih := ih (fun w r hm => h w r (by simp [hm]))
    match t with
    | [] => simpa [tagValue] using ih
    | [_] => simpa [tagValue] using ih
    | n :: w :: r =>
      have : n ≠ name := fun hn => h w r (by simp [hn])
      simpa [tagValue, this] using ih

theorem first_or_none (tags : List (List Bytes)) (name : Bytes) :
    (∃ v, FirstTag tags name v) ∨ ∀ w r, (name :: w :: r) ∉ tags := by
  induction tags with
  | nil => right; simp
  | cons t ts ih =>
    by_cases ht : ∃ w r, t = name :: w :: r
    · obtain ⟨w, r, rfl⟩ := ht
      exact .inl ⟨w, [], r, ts, rfl, by simp⟩
    · rcases ih with ⟨v, pre, more, post, rfl, h⟩ | h
      · refine .inl ⟨v, t :: pre, more, post, rfl, ?_⟩
        intro u hu w r he
        rcases List.mem_cons.1 hu with rfl | hu
        · exact ht ⟨w, r, he⟩
        · exact h u hu w r he
      · right
        intro w r hm
        rcases List.mem_cons.1 hm with he | hm
        · exact ht ⟨w, r, he.symm⟩
        · exact h w r hm

theorem tagValue_iff {tags : List (List Bytes)} {name v : Bytes} :
    tagValue tags name = some v ↔ FirstTag tags name v := by
  constructor
  · intro h
    rcases first_or_none tags name with ⟨w, hw⟩ | hn
    · rw [tagValue_of_first hw] at h
      simp only [Option.some.injEq] at h
      subst h
      exact hw
    · rw [tagValue_none hn] at h; simp at h
  · exact tagValue_of_first

theorem dValue_iff {t : Event} {dv : Bytes} :
    DValue t dv ↔ (tagValue t.tags (c!"d")).getD [] = dv := by
  constructor
  · rintro (h | ⟨rfl, h⟩)
    · rw [tagValue_of_first h]; rfl
    · rw [tagValue_none h]; rfl
  · intro h
    rcases first_or_none t.tags (c!"d") with ⟨w, hw⟩ | hn
    · rw [tagValue_of_first hw] at h
      simp only [Option.getD_some] at h
      subst h; exact .inl hw
    · rw [tagValue_none hn] at h
      exact .inr ⟨h.symm, hn⟩

theorem strtol_decimal {s : Bytes} (h : Decimal s) :
    Num.strtol s = (if (Num.natOf s : Int) > 2 ^ 63 - 1 then 2 ^ 63 - 1 else (Num.natOf s : Int), []) := by
  have hd : ∀ c ∈ s, Num.isDigit c = true := fun c hc => (Num.isDigit_iff c).2 (h.2 c hc)
  have := Num.scanDec_digits (rest := []) h.1 hd (by simp)
  rw [List.append_nil] at this
  unfold Num.strtol
  rw [this]
  simp only [Bool.false_eq_true, if_false]
  rw [if_neg (by omega)]

/-! ## memcmp -/

theorem memcmp_lt_iff : ∀ (a b : Bytes), a.length = b.length → (memcmp a b < 0 ↔ a < b)
  | [], [], _ => by simp [memcmp]
  | x :: as, y :: bs, h => by
    have ih := memcmp_lt_iff as bs (by simpa using h)
    unfold memcmp
    rw [List.cons_lt_cons_iff]
    by_cases h1 : x < y
    · simp [h1]
    · rw [if_neg h1]
      by_cases h2 : x > y
      · rw [if_pos h2]
        have : x ≠ y := by rintro rfl; exact UInt8.lt_irrefl _ h2
        simp [h1, this]
      · rw [if_neg h2]
        have : x = y := UInt8.le_antisymm (UInt8.not_lt.1 h2) (UInt8.not_lt.1 h1)
        subst this
        simp [ih]

theorem memcmp_swap : ∀ (a b : Bytes), memcmp a b = - memcmp b a
  | [], [] => by simp [memcmp]
  | [], _ :: _ => by simp [memcmp]
  | _ :: _, [] => by simp [memcmp]
  | x :: as, y :: bs => by
    unfold memcmp
    by_cases h1 : x < y
    · have h2 : ¬ y < x := fun h => UInt8.lt_irrefl _ (UInt8.lt_trans h1 h)
      simp [h1, h2]
    · by_cases h2 : y < x
      · simp [h1, h2]
      · simp only [h1, h2, if_false, gt_iff_lt]
        exact memcmp_swap as bs

theorem memcmp_gt_iff (a b : Bytes) (h : a.length = b.length) : memcmp a b > 0 ↔ b < a := by
  rw [memcmp_swap, ← memcmp_lt_iff b a h.symm]
  omega

theorem memcmp_zero_iff : ∀ (a b : Bytes), a.length = b.length → (memcmp a b = 0 ↔ a = b)
  | [], [], _ => by simp [memcmp]
  | x :: as, y :: bs, h => by
    have ih := memcmp_zero_iff as bs (by simpa using h)
    unfold memcmp
    by_cases h1 : x < y
    · have : x ≠ y := by rintro rfl; exact UInt8.lt_irrefl _ h1
      simp [h1, this]
    · rw [if_neg h1]
      by_cases h2 : x > y
      · have : x ≠ y := by rintro rfl; exact UInt8.lt_irrefl _ h2
        simp [h2, this]
      · rw [if_neg h2]
        have : x = y := UInt8.le_antisymm (UInt8.not_lt.1 h2) (UInt8.not_lt.1 h1)
        subst this
        simp [ih]

theorem compare_pos_iff {a b : Event} (h : a.id.length = b.id.length) :
    compareReplaceable a b > 0 ↔ Supersedes a b := by
  unfold compareReplaceable Supersedes
  have h1 := memcmp_lt_iff a.id b.id h
  split
  · constructor
    · intro h; omega
    · rintro (h | ⟨h, -⟩) <;> omega
  · split
    · constructor
      · intro _; left; omega
      · intro _; omega
    · have he : a.createdAt = b.createdAt := by omega
      simp only [he, true_and]
      split
      · rename_i hm; simp [h1.1 hm]
      · rename_i hm
        have : ¬ a.id < b.id := fun hl => hm (h1.2 hl)
        split <;> simp [this]

theorem compare_neg_iff {a b : Event} (h : a.id.length = b.id.length) :
    compareReplaceable a b < 0 ↔ Supersedes b a := by
  rw [← compare_pos_iff h.symm]
  unfold compareReplaceable
  rw [memcmp_swap a.id b.id]
  generalize memcmp b.id a.id = m
  repeat' split
  all_goals omega

theorem supersedes_trans {a b c : Event} (h1 : Supersedes a b) (h2 : Supersedes b c) : Supersedes a c := by
  unfold Supersedes at *
  rcases h1 with h1 | ⟨h1, h1'⟩ <;> rcases h2 with h2 | ⟨h2, h2'⟩
  · left; omega
  · left; omega
  · left; omega
  · right; exact ⟨by omega, List.lt_trans h1' h2'⟩

theorem supersedes_irrefl (a : Event) : ¬ Supersedes a a := by
  rintro (h | ⟨-, h⟩)
  · omega
  · exact List.lt_irrefl _ h

theorem supersedes_total {a b : Event} (h : ¬ Supersedes a b) (h' : ¬ Supersedes b a) :
    a.createdAt = b.createdAt ∧ a.id = b.id := by
  unfold Supersedes at *
  have h1 : a.createdAt = b.createdAt := by
    rcases Int.lt_trichotomy a.createdAt b.createdAt with h1 | h1 | h1
    · exact absurd (.inl h1) h'
    · exact h1
    · exact absurd (.inl h1) h
  refine ⟨h1, ?_⟩
  have h2 : ¬ a.id < b.id := fun hl => h (.inr ⟨h1, hl⟩)
  have h3 : ¬ b.id < a.id := fun hl => h' (.inr ⟨h1.symm, hl⟩)
  exact List.le_antisymm (List.not_lt.1 h3) (List.not_lt.1 h2)

/-- Whatever is in the slot stays at least as good. -/
theorem fold_best (l : List Event) (hl : ∀ e ∈ l, e.id.length = 32) : ∀ (s : Event), s.id.length = 32 →
    ∃ w, l.foldl arrive (some s) = some w ∧ w ∈ s :: l ∧ ∀ e ∈ s :: l, ¬ Supersedes e w := by
  induction l with
  | nil => intro s _; exact ⟨s, rfl, by simp, by simp [supersedes_irrefl]⟩
  | cons x l ih =>
    intro s hs
    have hx := hl x (by simp)
    have ih := ih (fun e he => hl e (by simp [he]))
    simp only [List.foldl_cons, arrive]
    have hc := compare_pos_iff (a := x) (b := s) (by rw [hx, hs])
    by_cases h : compareReplaceable x s > 0
    · rw [if_pos h]
      obtain ⟨w, h1, h2, h3⟩ := ih x hx
      refine ⟨w, h1, by simp at h2 ⊢; exact .inr h2, ?_⟩
      intro e he
      rcases List.mem_cons.1 he with rfl | he
      · intro hsw
        have := hc.1 h
        exact h3 x (by simp) (supersedes_trans this hsw)
      · exact h3 e he
    · rw [if_neg h]
      obtain ⟨w, h1, h2, h3⟩ := ih s hs
      refine ⟨w, h1, by
        simp at h2 ⊢
        rcases h2 with h2 | h2
        · exact .inl h2
        · exact .inr (.inr h2), ?_⟩
      intro e he
      rcases List.mem_cons.1 he with rfl | he
      · exact h3 e (by simp)
      · rcases List.mem_cons.1 he with rfl | he
        · intro hew
          -- neither supersedes the other or `s` supersedes `e`
          by_cases hse : Supersedes s e
          · exact h3 s (by simp) (supersedes_trans hse hew)
          · obtain ⟨h4, h5⟩ := supersedes_total (fun hh => h (hc.2 hh)) hse
            apply h3 s (by simp)
            unfold Supersedes at hew ⊢
            rwa [← h4, ← h5]
        · exact h3 e (by simp [he])

/-! ## deletion -/

theorem lowHex_dig : ∀ n < 16, lowHex (Hex.dig n) = true := by decide +kernel

theorem hexText_lowHex (b : Bytes) : (Hex.Spec.hexText b).all lowHex = true := by
  induction b with
  | nil => rfl
  | cons x b ih =>
    rw [Hex.Spec.hexText, List.flatMap_cons, List.all_append]
    rw [Hex.Spec.hexText] at ih
    rw [ih, Hex.hexOf_eq]
    have := x.toNat_lt
    simp [lowHex_dig _ (show x.toNat / 16 < 16 by omega), lowHex_dig _ (show x.toNat % 16 < 16 by omega)]

theorem validateHex64_hexText {b : Bytes} (h : b.length = 32) : validateHex64 (Hex.Spec.hexText b) = true := by
  unfold validateHex64
  rw [hexText_lowHex, Hex.hexText_length, h]; rfl

theorem mem_delIds {tags : List (List Bytes)} {v : Bytes} :
    v ∈ delIds tags ↔ validateHex64 v = true ∧ ∃ more, (c!"e" :: v :: more) ∈ tags := by
  induction tags with
  | nil => simp [delIds]
  | cons t ts ih =>
    match t with
    | [] => simp [delIds, ih]
    | [_] => simp [delIds, ih]
    | n :: w :: r =>
      unfold delIds
      by_cases h1 : n = c!"e"
      · subst h1
        by_cases h2 : validateHex64 w = true
        · simp only [if_true, h2, List.mem_cons, ih]
          constructor
          · rintro (rfl | ⟨h, m, hm⟩)
            · exact ⟨h2, r, .inl rfl⟩
            · exact ⟨h, m, .inr hm⟩
          · rintro ⟨h, m, hm | hm⟩
            · left; simp at hm; exact hm.1
            · exact .inr ⟨h, m, hm⟩
        · simp only [if_true, h2, if_false, Bool.false_eq_true, List.mem_cons, ih]
          constructor
          · rintro ⟨h, m, hm⟩; exact ⟨h, m, .inr hm⟩
          · rintro ⟨h, m, hm | hm⟩
            · simp at hm; rw [hm.1] at h; exact absurd h h2
            · exact ⟨h, m, hm⟩
      · simp only [h1, if_false, ih, List.mem_cons]
        constructor
        · rintro ⟨h, m, hm⟩; exact ⟨h, m, .inr hm⟩
        · rintro ⟨h, m, hm | hm⟩
          · simp at hm; exact absurd hm.1.symm h1
          · exact ⟨h, m, hm⟩

theorem mem_delAddrs {tags : List (List Bytes)} {v : Bytes} :
    v ∈ delAddrs tags ↔ validateAddress v = true ∧ ∃ more, (c!"a" :: v :: more) ∈ tags := by
  induction tags with
  | nil => simp [delAddrs]
  | cons t ts ih =>
    match t with
    | [] => simp [delAddrs, ih]
    | [_] => simp [delAddrs, ih]
    | n :: w :: r =>
      unfold delAddrs
      by_cases h0 : n = c!"e"
      · simp only [h0, if_true, ih, List.mem_cons]
        constructor
        · rintro ⟨h, m, hm⟩; exact ⟨h, m, .inr hm⟩
        · rintro ⟨h, m, hm | hm⟩
          · simp at hm
          · exact ⟨h, m, hm⟩
      by_cases h1 : n = c!"a"
      · subst h1
        by_cases h2 : validateAddress w = true
        · simp only [h0, if_false, if_true, h2, List.mem_cons, ih]
          constructor
          · rintro (rfl | ⟨h, m, hm⟩)
            · exact ⟨h2, r, .inl rfl⟩
            · exact ⟨h, m, .inr hm⟩
          · rintro ⟨h, m, hm | hm⟩
            · left; simp at hm; exact hm.1
            · exact .inr ⟨h, m, hm⟩
        · simp only [h0, if_false, if_true, h2, Bool.false_eq_true, List.mem_cons, ih]
          constructor
          · rintro ⟨h, m, hm⟩; exact ⟨h, m, .inr hm⟩
          · rintro ⟨h, m, hm | hm⟩
            · simp at hm; rw [hm.1] at h; exact absurd h h2
            · exact ⟨h, m, hm⟩
      · simp only [h0, h1, if_false, ih, List.mem_cons]
        constructor
        · rintro ⟨h, m, hm⟩; exact ⟨h, m, .inr hm⟩
        · rintro ⟨h, m, hm | hm⟩
          · simp at hm; exact absurd hm.1.symm h1
          · exact ⟨h, m, hm⟩

theorem strchr_append {c : UInt8} {a b : Bytes} (h : c ∉ a) : strchr c (a ++ c :: b) = some (a, b) := by
  unfold strchr
  rw [if_pos (by simp)]
  induction a with
  | nil => simp
  | cons x a ih =>
    have hx : (x != c) = true := by simp; rintro rfl; simp at h
    have := ih (fun hm => h (by simp [hm]))
    simp only [Option.some.injEq, Prod.mk.injEq] at this ⊢
    simp only [List.cons_append, List.takeWhile_cons, List.dropWhile_cons, hx, if_true]
    exact ⟨by rw [this.1], this.2⟩

theorem colon_not_digit {c : UInt8} (h : Num.isDigit c = true) : c ≠ 0x3a := by
  rintro rfl; exact absurd h (by decide)

theorem colon_not_lowHex {c : UInt8} (h : lowHex c = true) : c ≠ 0x3a := by
  rintro rfl; exact absurd h (by decide)

theorem validateAddress_address {t : Event} {dv : Bytes} (h : t.pubkey.length = 32) :
    validateAddress (address t dv) = true := by
  unfold validateAddress address
  simp only [List.append_assoc]
  have h1 : (0x3a : UInt8) ∉ Num.decNat t.kind := fun hm => colon_not_digit (Num.decNat_digits _ _ hm) rfl
  have hx := hexText_lowHex t.pubkey
  have h2 : (0x3a : UInt8) ∉ Hex.Spec.hexText t.pubkey := fun hm =>
    colon_not_lowHex (List.all_eq_true.1 hx _ hm) rfl
  simp only [List.cons_append, List.nil_append]
  rw [strchr_append h1]
  simp only [Num.decNat_ne, if_false]
  rw [strchr_append h2]
  have h3 : (Num.decNat t.kind).all Num.isDigit = true := List.all_eq_true.2 (Num.decNat_digits _)
  simp [h3, hx, Hex.hexText_length, h]

theorem addressText_eq {t : Event} : addressText t = address t ((tagValue t.tags (c!"d")).getD []) := by
  unfold addressText address
  rw [Hex.hexEncode_eq]

/-! ## binary tag values -/

theorem lowHex_nibble : ∀ n < 256, lowHex (UInt8.ofNat n) = true → (Hex.nibble (UInt8.ofNat n)).isSome ∧
    Hex.low (UInt8.ofNat n) = UInt8.ofNat n := by decide +kernel

theorem hexStringToBytes_iff (lax : Bool) {v b : Bytes} (hv : validateHex64 v = true) :
    hexStringToBytes lax v 32 = some b ↔ b.length = 32 ∧ v = Hex.Spec.hexText b := by
  unfold validateHex64 at hv
  simp only [Bool.and_eq_true, decide_eq_true_eq, List.all_eq_true] at hv
  have hl : v.length = 2 * 32 := hv.1
  have hlow : Hex.Spec.lowerHex v = v := by
    unfold Hex.Spec.lowerHex
    rw [show v = v.map id by simp, List.map_map]
    apply List.map_congr_left
    intro c hc
    have := lowHex_nibble c.toNat c.toNat_lt
    rw [UInt8.ofNat_toNat] at this
    simpa [Hex.low] using (this (hv.2 c hc)).2
  have hp : ∃ bs, Hex.pairs v = some bs := by
    have := (Hex.pairs_some_iff v (by omega)).2
    apply this
    intro c hc
    rw [Hex.isHex_iff]
    have := lowHex_nibble c.toNat c.toNat_lt
    rw [UInt8.ofNat_toNat] at this
    exact (this (hv.2 c hc)).1
  obtain ⟨bs, hbs⟩ := hp
  have hk := Hex.keyLoop_digits lax 32 v bs hl hbs
  have he := (Hex.pairs_iff v bs (by omega)).1 hbs
  unfold hexStringToBytes
  rw [if_neg (by omega), hk]
  simp only [Option.some.injEq]
  rw [hlow] at he
  constructor
  · rintro rfl
    refine ⟨?_, he⟩
    have := Hex.hexText_length bs
    rw [← he] at this; omega
  · rintro ⟨-, h2⟩
    exact Hex.hexText_inj (by rw [← he, h2])

theorem hexStringToBytes_some (lax : Bool) {v : Bytes} (hv : validateHex64 v = true) :
    ∃ b, hexStringToBytes lax v 32 = some b := by
  have hv' := hv
  unfold validateHex64 at hv
  simp only [Bool.and_eq_true, decide_eq_true_eq, List.all_eq_true] at hv
  have hl : v.length = 2 * 32 := hv.1
  have hp : ∃ bs, Hex.pairs v = some bs := by
    apply (Hex.pairs_some_iff v (by omega)).2
    intro c hc
    rw [Hex.isHex_iff]
    have := lowHex_nibble c.toNat c.toNat_lt
    rw [UInt8.ofNat_toNat] at this
    exact (this (hv.2 c hc)).1
  obtain ⟨bs, hbs⟩ := hp
  have hk := Hex.keyLoop_digits lax 32 v bs hl hbs
  refine ⟨bs, ?_⟩
  unfold hexStringToBytes
  rw [if_neg (by omega), hk]

theorem binLoop_eq (lax : Bool) (name : Bytes) : ∀ (tags : List (List Bytes)) (room : Nat),
    (tags.filter fun t => (selected name t).isSome).length ≤ room →
    binLoop lax name room tags =
      tags.filterMap fun t => (selected name t).bind fun v => hexStringToBytes lax v 32 := by
  intro tags
  induction tags with
  | nil => intro room _; cases room <;> simp [binLoop]
  | cons t ts ih =>
    intro room hr
    cases hs : selected name t with
    | none =>
      have hf : (List.filter (fun t => (selected name t).isSome) (t :: ts)) =
          List.filter (fun t => (selected name t).isSome) ts := by simp [hs]
      rw [hf] at hr
      have ih := ih room hr
      cases room with
      | zero =>
        simp only [List.filterMap_cons, hs, Option.bind_none]
        rw [← ih]; cases ts <;> rfl
      | succ room => simp [binLoop, hs, ih]
    | some v =>
      have hf : (List.filter (fun t => (selected name t).isSome) (t :: ts)) =
          t :: List.filter (fun t => (selected name t).isSome) ts := by simp [hs]
      rw [hf] at hr
      cases room with
      | zero => simp at hr
      | succ room =>
        have hv : validateHex64 v = true := by
          unfold selected at hs
          split at hs
          · split at hs
            · simp at hs; rename_i h _; rw [← hs]; rename_i h2; exact h2.2
            · simp at hs
          · simp at hs
        obtain ⟨b, hb⟩ := hexStringToBytes_some lax hv
        have ih := ih room (by simpa using hr)
        simp [binLoop, hs, hb, ih]

end Nostr.RelayProto

namespace Nostr.RelayProto
open Nostr Nostr.Event Spec

theorem strchr_iff {c : UInt8} {s a b : Bytes} : strchr c s = some (a, b) ↔ s = a ++ c :: b ∧ c ∉ a := by
  constructor
  · intro h
    unfold strchr at h
    split at h
    · rename_i hm
      simp only [Option.some.injEq, Prod.mk.injEq] at h
      obtain ⟨rfl, rfl⟩ := h
      induction s with
      | nil => simp at hm
      | cons x s ih =>
        by_cases hx : x = c
        · subst hx; simp
        · have hx' : (x != c) = true := by simpa using hx
          have hm' : c ∈ s := by
            rcases List.mem_cons.1 hm with h | h
            · exact absurd h.symm hx
            · exact h
          obtain ⟨h1, h2⟩ := ih hm'
          simp only [List.takeWhile_cons, List.dropWhile_cons, hx', if_true, List.cons_append,
            List.mem_cons, not_or]
          exact ⟨by rw [← h1], fun h => hx h.symm, h2⟩
    · simp at h
  · rintro ⟨rfl, h⟩
    exact strchr_append h

theorem lowHex_iff_table : ∀ n < 256, (lowHex (UInt8.ofNat n) = true ↔
    (0x30 ≤ n ∧ n ≤ 0x39) ∨ (0x61 ≤ n ∧ n ≤ 0x66)) := by decide +kernel

theorem lowHex_iff (c : UInt8) : lowHex c = true ↔
    (0x30 ≤ c.toNat ∧ c.toNat ≤ 0x39) ∨ (0x61 ≤ c.toNat ∧ c.toNat ≤ 0x66) := by
  have := lowHex_iff_table c.toNat c.toNat_lt
  rwa [UInt8.ofNat_toNat] at this

theorem scan_stop {s : Bytes} {c : UInt8} (hc : c ∈ s) (h1 : Num.isDigit c = false) (h2 : Num.isSpace c = false)
    (h3 : c ≠ 0x2d) (h4 : c ≠ 0x2b) : (Num.strtol s).2 ≠ [] := by
  have key : ∀ p : UInt8 → Bool, p c = false → ∀ l : Bytes, c ∈ l → c ∈ l.dropWhile p := by
    intro p hp l
    induction l with
    | nil => simp
    | cons x l ih =>
      intro hm
      rw [List.dropWhile_cons]
      split
      · rename_i hx
        apply ih
        rcases List.mem_cons.1 hm with rfl | h
        · rw [hp] at hx; simp at hx
        · exact h
      · exact hm
  have ht := key _ h2 s hc
  have hs : Num.strtol s = (0, s) ∨ (∃ v, Num.strtol s = (v, ((if ((s.dropWhile Num.isSpace).head? == some 0x2d ||
      (s.dropWhile Num.isSpace).head? == some 0x2b) = true then (s.dropWhile Num.isSpace).tail
      else s.dropWhile Num.isSpace).dropWhile Num.isDigit))) := by
    unfold Num.strtol Num.scanDec
    simp only []
    split
    · left; rfl
    · right
      rename_i heq
      split at heq
      · rename_i hh
        simp at heq
        rw [if_pos hh]
        exact ⟨_, by rw [heq.2.2.2]⟩
      · rename_i hh
        simp at heq
        rw [if_neg hh]
        exact ⟨_, by rw [heq.2.2.2]⟩
  rcases hs with hs | ⟨v, hs⟩
  · rw [hs]; intro h; simp only at h; rw [h] at hc; simp at hc
  · rw [hs]
    have hu : c ∈ (if ((s.dropWhile Num.isSpace).head? == some 0x2d ||
      (s.dropWhile Num.isSpace).head? == some 0x2b) = true then (s.dropWhile Num.isSpace).tail
      else s.dropWhile Num.isSpace) := by
      split
      · rename_i hh
        cases hd : s.dropWhile Num.isSpace with
        | nil => rw [hd] at ht; simp at ht
        | cons x l =>
          rw [hd] at ht hh
          simp only [List.head?_cons, List.tail_cons] at hh ⊢
          rcases List.mem_cons.1 ht with rfl | h
          · simp [h3, h4] at hh
          · exact h
      · exact ht
    have := key _ h1 _ hu
    intro h
    simp only at h
    rw [h] at this
    simp at this

end Nostr.RelayProto
