import Verif.Bits
import Verif.Bech32.Model

/-! # Helper lemmas for bech32: bit regrouping -/

namespace Nostr.Bech32
open Nostr

/-! ## `convert_bits` -/

theorem ofNat_mask_toNat {t : Nat} (ht : t ≤ 8) (n : Nat) :
    (UInt8.ofNat (n &&& (2 ^ t - 1))).toNat = n % 2 ^ t := by
  rw [Nat.and_two_pow_sub_one_eq_mod]
  have h1 : n % 2 ^ t < 2 ^ t := Nat.mod_lt _ (Nat.two_pow_pos t)
  have h2 : 2 ^ t ≤ 2 ^ 8 := Nat.pow_le_pow_right (by omega) ht
  simp
  omega

theorem drain_spec {t L acc : Nat} (ht : 0 < t) (ht8 : t ≤ 8) :
    ∀ fuel bits out bits' out', bits ≤ fuel → Fits t out →
      drain t L acc fuel bits out = some (bits', out') →
      flat t out' ++ bitsBE bits' acc = flat t out ++ bitsBE bits acc ∧ bits' < t ∧ Fits t out' := by
  intro fuel
  induction fuel with
  | zero =>
    intro bits out bits' out' hb hf h
    simp only [drain, Option.some.injEq, Prod.mk.injEq] at h
    obtain ⟨rfl, rfl⟩ := h
    exact ⟨rfl, by omega, hf⟩
  | succ fuel ih =>
    intro bits out bits' out' hb hf h
    simp only [drain] at h
    split at h
    · split at h
      · simp at h
      · rename_i hge hlt
        have hf' : Fits t (out ++ [UInt8.ofNat ((acc >>> (bits - t)) &&& (2 ^ t - 1))]) := by
          apply hf.append
          intro x hx
          simp only [List.mem_singleton] at hx
          subst hx
          rw [ofNat_mask_toNat ht8]
          exact Nat.mod_lt _ (Nat.two_pow_pos t)
        have := ih _ _ _ _ (by omega) hf' h
        obtain ⟨h1, h2, h3⟩ := this
        refine ⟨?_, h2, h3⟩
        rw [h1]
        simp only [flat_append, flat_cons, flat_nil, List.append_nil, List.append_assoc]
        congr 1
        rw [ofNat_mask_toNat ht8, bitsBE_mod _ (Nat.le_refl _), ← bitsBE_add]
        congr 1
        omega
    · simp only [Option.some.injEq, Prod.mk.injEq] at h
      obtain ⟨rfl, rfl⟩ := h
      exact ⟨rfl, by omega, hf⟩

theorem drain_some {t L acc : Nat} (ht : 0 < t) :
    ∀ fuel bits (out : Bytes), bits ≤ fuel → t * out.length + bits < t * (L + 1) →
      ∃ r, drain t L acc fuel bits out = some r := by
  intro fuel
  induction fuel with
  | zero => intro bits out _ _; exact ⟨_, rfl⟩
  | succ fuel ih =>
    intro bits out hb hlen
    simp only [drain]
    split
    · rename_i hge
      have hlt : ¬ out.length ≥ L := by
        intro hge'
        have h1 : t * L ≤ t * out.length := Nat.mul_le_mul_left t hge'
        simp only [Nat.mul_add, Nat.mul_one] at hlen
        omega
      rw [if_neg hlt]
      apply ih
      · omega
      · simp only [List.length_append, List.length_cons, List.length_nil, Nat.mul_add]
          at hlen ⊢
        omega
    · exact ⟨_, rfl⟩

theorem shr_ne_zero_iff {b f : Nat} : b >>> f ≠ 0 ↔ 2 ^ f ≤ b := by
  rw [Nat.shiftRight_eq_div_pow]
  constructor
  · intro h
    rcases Nat.lt_or_ge b (2 ^ f) with h' | h'
    · exact absurd (Nat.div_eq_of_lt h') h
    · exact h'
  · intro h h0
    have := Nat.div_pos h (Nat.two_pow_pos f)
    omega

theorem convLoop_spec {f t L : Nat} (ht : 0 < t) (ht8 : t ≤ 8) :
    ∀ inp acc bits out acc' bits' out', bits < t → Fits t out →
      convLoop f t L inp acc bits out = some (acc', bits', out') →
      flat t out' ++ bitsBE bits' acc' = flat t out ++ bitsBE bits acc ++ flat f inp
        ∧ bits' < t ∧ Fits t out' ∧ Fits f inp := by
  intro inp
  induction inp with
  | nil =>
    intro acc bits out acc' bits' out' hb hf h
    simp only [convLoop, Option.some.injEq, Prod.mk.injEq] at h
    obtain ⟨rfl, rfl, rfl⟩ := h
    exact ⟨by simp, hb, hf, by intro x hx; simp at hx⟩
  | cons b rest ih =>
    intro acc bits out acc' bits' out' hb hf h
    simp only [convLoop] at h
    split at h
    · simp at h
    · rename_i hbf
      rw [shr_ne_zero_iff] at hbf
      split at h
      · simp at h
      · rename_i bits1 out1 hd
        obtain ⟨d1, d2, d3⟩ := drain_spec ht ht8 _ _ _ _ _ (Nat.le_refl _) hf hd
        obtain ⟨e1, e2, e3, e4⟩ := ih _ _ _ _ _ _ d2 d3 h
        refine ⟨?_, e2, e3, ?_⟩
        · rw [e1, d1, flat_cons, List.append_assoc, List.append_assoc]
          congr 1
          rw [← List.append_assoc]
          congr 1
          rw [Nat.and_two_pow_sub_one_eq_mod, bitsBE_mod _ (by omega), bitsBE_append_low (by omega)]
        · intro x hx
          rcases List.mem_cons.1 hx with rfl | hx
          · omega
          · exact e4 x hx

theorem convLoop_some {f t L : Nat} (ht : 0 < t) (ht8 : t ≤ 8) :
    ∀ inp acc bits out, bits < t → Fits t out → Fits f inp →
      t * out.length + bits + f * inp.length < t * (L + 1) →
      ∃ r, convLoop f t L inp acc bits out = some r := by
  intro inp
  induction inp with
  | nil => intro acc bits out _ _ _ _; exact ⟨_, rfl⟩
  | cons b rest ih =>
    intro acc bits out hb hf hin hlen
    simp only [List.length_cons, Nat.mul_add, Nat.mul_one] at hlen
    simp only [convLoop]
    have hbf : ¬ (b.toNat >>> f ≠ 0) := by
      rw [shr_ne_zero_iff]
      have := hin b (by simp)
      omega
    rw [if_neg hbf]
    obtain ⟨⟨bits1, out1⟩, hd⟩ := drain_some (t := t) (L := L)
      (acc := ((acc <<< f) ||| b.toNat) &&& (2 ^ (f + t - 1) - 1)) ht (bits + f) (bits + f) out
      (Nat.le_refl _) (by simp only [Nat.mul_add, Nat.mul_one]; omega)
    rw [hd]
    obtain ⟨d1, d2, d3⟩ := drain_spec ht ht8 _ _ _ _ _ (Nat.le_refl _) hf hd
    apply ih _ _ _ d2 d3 (fun x hx => hin x (by simp [hx]))
    have hl := congrArg List.length d1
    simp only [List.length_append, flat_length, bitsBE_length] at hl
    simp only [Nat.mul_add, Nat.mul_one]
    omega

/-- 8→5 regrouping with padding never fails (given room) and yields the same bits followed by fewer
than five zero bits. -/
theorem convert_pad_spec {f t L : Nat} (hf : 0 < f) (ht : 0 < t) (ht8 : t ≤ 8) (xs : Bytes)
    (hx : Fits f xs) (hroom : f * xs.length ≤ t * L) :
    ∃ k, k < t ∧ flat t (convertBits xs L f t true) = flat f xs ++ List.replicate k false
      ∧ Fits t (convertBits xs L f t true) := by
  obtain ⟨⟨acc, bits, out⟩, h⟩ := convLoop_some (f := f) (t := t) (L := L) ht ht8 xs 0 0 []
    ht (by intro x hx; simp at hx) hx (by simp [Nat.mul_add]; omega)
  obtain ⟨h1, h2, h3, _⟩ := convLoop_spec ht ht8 _ _ _ _ _ _ _ ht (by intro x hx; simp at hx) h
  simp only [flat_nil, bitsBE, List.nil_append] at h1
  simp only [convertBits, h]
  have hl := congrArg List.length h1
  simp only [List.length_append, flat_length, bitsBE_length] at hl
  by_cases hb : bits = 0
  · subst hb
    simp only [bitsBE, List.append_nil] at h1
    exact ⟨0, ht, by simp [h1], by simpa using h3⟩
  · have hlt : ¬ out.length ≥ L := by
      intro hge
      have : t * L ≤ t * out.length := Nat.mul_le_mul_left t hge
      omega
    rw [if_pos trivial, if_pos hb, if_neg hlt]
    refine ⟨t - bits, by omega, ?_, ?_⟩
    · rw [flat_append, flat_cons, flat_nil, List.append_nil, ofNat_mask_toNat ht8,
        bitsBE_mod _ (Nat.le_refl _)]
      have : bitsBE t (acc <<< (t - bits)) = bitsBE bits acc ++ List.replicate (t - bits) false := by
        rw [← bitsBE_shiftLeft_zeros]
        congr 1
        omega
      rw [this, ← List.append_assoc, h1]
    · apply h3.append
      intro x hx
      simp only [List.mem_singleton] at hx
      subst hx
      rw [ofNat_mask_toNat ht8]
      exact Nat.mod_lt _ (Nat.two_pow_pos t)

/-- Strict regrouping: the output is non-empty only if the input bits are the output bits followed by
fewer than `f` zero bits. -/
theorem convert_strict_spec {f t L : Nat} (ht : 0 < t) (ht8 : t ≤ 8) (xs : Bytes)
    (h : convertBits xs L f t false ≠ []) :
    Fits f xs ∧ Fits t (convertBits xs L f t false) ∧
    ∃ k, k < f ∧ k < t ∧
      flat f xs = flat t (convertBits xs L f t false) ++ List.replicate k false := by
  simp only [convertBits] at h ⊢
  split at h
  · simp at h
  · rename_i acc bits out hc
    obtain ⟨h1, h2, h3, h4⟩ := convLoop_spec ht ht8 _ _ _ _ _ _ _ ht (by intro x hx; simp at hx) hc
    simp only [flat_nil, bitsBE, List.nil_append] at h1
    simp only [Bool.false_eq_true, if_false] at h ⊢
    split at h
    · simp at h
    · rename_i hcond
      rw [if_neg hcond]
      simp only [not_or, Nat.not_le, Decidable.not_not, ge_iff_le] at hcond
      refine ⟨h4, h3, bits, hcond.1, h2, ?_⟩
      rw [← h1]
      congr 1
      have hz := hcond.2
      rw [Nat.and_two_pow_sub_one_eq_mod] at hz
      have e : bitsBE t (acc <<< (t - bits)) = bitsBE bits acc ++ List.replicate (t - bits) false := by
        rw [← bitsBE_shiftLeft_zeros]
        congr 1
        omega
      have e2 : bitsBE t (acc <<< (t - bits)) = List.replicate t false := by
        rw [← bitsBE_mod _ (Nat.le_refl t), hz, bitsBE_zero]
      rw [e2] at e
      have e3 : List.replicate t false
          = List.replicate bits false ++ List.replicate (t - bits) false := by
        rw [List.replicate_append_replicate]
        congr 1
        omega
      rw [e3] at e
      exact (List.append_inj e (by simp)).1.symm

/-- Strict regrouping accepts every input that is an exact regrouping with short zero padding. -/
theorem convert_strict_complete {f t L : Nat} (ht : 0 < t) (ht8 : t ≤ 8) (xs ys : Bytes)
    (hx : Fits f xs) (hy : Fits t ys) (k : Nat) (hkf : k < f) (hkt : k < t)
    (h : flat f xs = flat t ys ++ List.replicate k false) (hL : ys.length ≤ L) :
    convertBits xs L f t false = ys := by
  have hlen := congrArg List.length h
  simp only [List.length_append, flat_length, List.length_replicate] at hlen
  have hroom : t * ys.length ≤ t * L := Nat.mul_le_mul_left t hL
  obtain ⟨⟨acc, bits, out⟩, hc⟩ := convLoop_some (f := f) (t := t) (L := L) ht ht8 xs 0 0 []
    ht (by intro x hx; simp at hx) hx (by simp [Nat.mul_add]; omega)
  obtain ⟨h1, h2, h3, _⟩ := convLoop_spec ht ht8 _ _ _ _ _ _ _ ht (by intro x hx; simp at hx) hc
  simp only [flat_nil, bitsBE, List.nil_append] at h1
  rw [h] at h1
  have hl1 := congrArg List.length h1
  simp only [List.length_append, flat_length, List.length_replicate, bitsBE_length] at hl1
  have hol : out.length = ys.length := by
    rcases Nat.lt_trichotomy out.length ys.length with hlt | heq | hgt
    · have : t * (out.length + 1) ≤ t * ys.length := Nat.mul_le_mul_left t hlt
      simp only [Nat.mul_add, Nat.mul_one] at this
      omega
    · exact heq
    · have : t * (ys.length + 1) ≤ t * out.length := Nat.mul_le_mul_left t hgt
      simp only [Nat.mul_add, Nat.mul_one] at this
      omega
  have hbk : bits = k := by rw [hol] at hl1; omega
  have hsplit := List.append_inj h1 (by simp [hol])
  have hout : out = ys := flat_inj ht h3 hy hsplit.1
  subst hout hbk
  simp only [convertBits, hc, Bool.false_eq_true, if_false]
  rw [if_neg]
  simp only [not_or, Nat.not_le, Decidable.not_not, ge_iff_le]
  refine ⟨hkf, ?_⟩
  rw [Nat.and_two_pow_sub_one_eq_mod]
  apply mod_eq_zero_of_bitsBE
  have e : bitsBE t (acc <<< (t - bits)) = bitsBE bits acc ++ List.replicate (t - bits) false := by
    rw [← bitsBE_shiftLeft_zeros]
    congr 1
    omega
  rw [e, hsplit.2, List.replicate_append_replicate]
  congr 1
  omega

end Nostr.Bech32
