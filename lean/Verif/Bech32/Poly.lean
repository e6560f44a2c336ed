import Verif.Bits
import Verif.Bech32.Model

/-! # Helper lemmas for bech32: algebra of the checksum -/

namespace Nostr.Bech32
open Nostr

/-- Symbol as a 32-bit word. -/
def w32 (v : UInt8) : BitVec 32 := v.toBitVec.setWidth 32

theorem bit_cond (t : BitVec 32) (j : Nat) : ((t >>> j) &&& 1#32 ≠ 0#32) ↔ t.getLsbD j = true := by
  constructor
  · intro h
    apply Classical.byContradiction
    intro hf
    apply h
    ext i hi
    by_cases h0 : i = 0
    · subst h0; simp_all
    · simp [BitVec.getElem_one, h0]
  · intro h h0
    have := congrArg (fun x => x.getLsbD 0) h0
    simp at this
    simp_all

theorem mixTop_xor (t1 t2 : BitVec 32) (gs : List (BitVec 32)) :
    ∀ j c1 c2, mixTop (t1 ^^^ t2) j gs (c1 ^^^ c2) = mixTop t1 j gs c1 ^^^ mixTop t2 j gs c2 := by
  induction gs with
  | nil => intro j c1 c2; rfl
  | cons g gs ih =>
    intro j c1 c2
    simp only [mixTop, bit_cond]
    rw [← ih]
    congr 1
    rw [BitVec.getLsbD_xor]
    cases t1.getLsbD j <;> cases t2.getLsbD j <;> simp
    · rw [BitVec.xor_assoc]
    · rw [BitVec.xor_assoc, BitVec.xor_assoc, BitVec.xor_comm g c2]
    · rw [BitVec.xor_assoc, ← BitVec.xor_assoc g, BitVec.xor_comm g c2, BitVec.xor_assoc c2,
        BitVec.xor_self, BitVec.xor_zero]

/-- One checksum step with symbol given as a word. -/
def stepW (c v : BitVec 32) : BitVec 32 :=
  mixTop (c >>> 25) 0 generator (((c &&& 0x1ffffff#32) <<< 5) ^^^ v)

theorem polymodStep_eq (c : BitVec 32) (v : UInt8) : polymodStep c v = stepW c (w32 v) := rfl

theorem stepW_xor (a b u v : BitVec 32) : stepW (a ^^^ b) (u ^^^ v) = stepW a u ^^^ stepW b v := by
  unfold stepW
  rw [← mixTop_xor]
  have e1 : (a ^^^ b) >>> 25 = a >>> 25 ^^^ b >>> 25 := by
    ext i hi; simp
  have e2 : ((a ^^^ b) &&& 0x1ffffff#32) <<< 5 ^^^ (u ^^^ v)
      = ((a &&& 0x1ffffff#32) <<< 5 ^^^ u) ^^^ ((b &&& 0x1ffffff#32) <<< 5 ^^^ v) := by
    ext i hi
    simp only [BitVec.getElem_xor, BitVec.getElem_shiftLeft, BitVec.getElem_and]
    cases u[i] <;> cases v[i] <;> cases (decide (i < 5)) <;> cases a[i - 5] <;>
      cases b[i - 5] <;> cases (0x1ffffff#32)[i - 5] <;> rfl
  rw [e1, e2]

/-- Checksum steps from an arbitrary state. -/
def polyFrom (c : BitVec 32) (ws : List (BitVec 32)) : BitVec 32 := ws.foldl stepW c

@[simp] theorem polyFrom_nil (c : BitVec 32) : polyFrom c [] = c := rfl
@[simp] theorem polyFrom_cons (c w : BitVec 32) (ws : List (BitVec 32)) :
    polyFrom c (w :: ws) = polyFrom (stepW c w) ws := rfl
theorem polyFrom_append (c : BitVec 32) (xs ys : List (BitVec 32)) :
    polyFrom c (xs ++ ys) = polyFrom (polyFrom c xs) ys := by simp [polyFrom]

theorem polymod_eq (vs : Bytes) : polymod vs = polyFrom 1#32 (vs.map w32) := by
  unfold polymod polyFrom
  rw [List.foldl_map]
  rfl

theorem polyFrom_xor (xs ys : List (BitVec 32)) (h : xs.length = ys.length) :
    ∀ a b, polyFrom (a ^^^ b) (List.zipWith (· ^^^ ·) xs ys) = polyFrom a xs ^^^ polyFrom b ys := by
  induction xs generalizing ys with
  | nil =>
    cases ys with
    | nil => intro a b; rfl
    | cons y ys => simp at h
  | cons x xs ih =>
    cases ys with
    | nil => simp at h
    | cons y ys =>
      intro a b
      simp only [List.zipWith_cons_cons, polyFrom_cons, stepW_xor]
      exact ih ys (by simpa using h) _ _

/-- State transition on a zero symbol. -/
def T (c : BitVec 32) : BitVec 32 := stepW c 0#32

theorem stepW_eq_T (c v : BitVec 32) : stepW c v = T c ^^^ v := by
  have h := stepW_xor c 0#32 0#32 v
  rw [BitVec.xor_zero, BitVec.zero_xor] at h
  rw [h]
  unfold T
  congr 1
  unfold stepW
  have : (0#32 >>> 25 : BitVec 32) = 0#32 := by simp
  rw [this]
  have hz : ∀ gs j c, mixTop 0#32 j gs c = c := by
    intro gs
    induction gs with
    | nil => intro j c; rfl
    | cons g gs ih => intro j c; simp only [mixTop, bit_cond]; simp [ih]
  rw [hz]
  simp

theorem mixTop_zero (gs : List (BitVec 32)) : ∀ j c, mixTop 0#32 j gs c = c := by
  induction gs with
  | nil => intro j c; rfl
  | cons g gs ih => intro j c; simp only [mixTop, bit_cond]; simp [ih]

theorem mixTop_acc (t c : BitVec 32) (gs : List (BitVec 32)) (j : Nat) :
    mixTop t j gs c = c ^^^ mixTop t j gs 0#32 := by
  have h := mixTop_xor 0#32 t gs j c 0#32
  rw [BitVec.zero_xor, BitVec.xor_zero, mixTop_zero] at h
  exact h

theorem T_xor (a b : BitVec 32) : T (a ^^^ b) = T a ^^^ T b := by
  have h := stepW_xor a b 0#32 0#32
  rwa [BitVec.xor_zero] at h

theorem T_zero : T 0#32 = 0#32 := by decide

/-- Generator words combined according to the five bits of `top`. -/
def gmix (top : BitVec 32) : BitVec 32 := mixTop top 0 generator 0#32

theorem T_eq (c : BitVec 32) : T c = ((c &&& 0x1ffffff#32) <<< 5) ^^^ gmix (c >>> 25) := by
  unfold T stepW gmix
  rw [mixTop_acc, BitVec.xor_zero]

/-- The low five bits of the combined generators vanish only if none is used. -/
theorem gmix_low_table : ∀ n < 32, (gmix (BitVec.ofNat 32 n) &&& 31#32 = 0#32) → n = 0 := by
  decide +kernel

/-- Combined generators fit 30 bits. -/
theorem gmix_bound_table : ∀ n < 32, (gmix (BitVec.ofNat 32 n)).toNat < 2 ^ 30 := by
  decide +kernel

theorem shr25_lt {c : BitVec 32} (h : c.toNat < 2 ^ 30) : (c >>> 25).toNat < 32 := by
  rw [BitVec.toNat_ushiftRight, Nat.shiftRight_eq_div_pow]
  omega

theorem ofNat_shr25 (c : BitVec 32) : BitVec.ofNat 32 (c >>> 25).toNat = c >>> 25 := by
  rw [BitVec.ofNat_toNat, BitVec.setWidth_eq]

theorem mask_shl_toNat (c : BitVec 32) :
    ((c &&& 0x1ffffff#32) <<< 5).toNat = (c.toNat % 2 ^ 25) * 32 := by
  have h : (0x1ffffff#32).toNat = 2 ^ 25 - 1 := by decide
  rw [BitVec.toNat_shiftLeft, BitVec.toNat_and, h, Nat.and_two_pow_sub_one_eq_mod,
    Nat.shiftLeft_eq]
  have : c.toNat % 2 ^ 25 < 2 ^ 25 := Nat.mod_lt _ (by decide)
  omega

theorem xor_lt {a b k : Nat} (ha : a < 2 ^ k) (hb : b < 2 ^ k) : a ^^^ b < 2 ^ k :=
  Nat.xor_lt_two_pow ha hb

theorem T_bound {c : BitVec 32} (h : c.toNat < 2 ^ 30) : (T c).toNat < 2 ^ 30 := by
  rw [T_eq, BitVec.toNat_xor]
  apply xor_lt
  · rw [mask_shl_toNat]
    have : c.toNat % 2 ^ 25 < 2 ^ 25 := Nat.mod_lt _ (by decide)
    omega
  · have := gmix_bound_table _ (shr25_lt h)
    rwa [ofNat_shr25] at this

theorem stepW_bound {c v : BitVec 32} (h : c.toNat < 2 ^ 30) (hv : v.toNat < 2 ^ 30) :
    (stepW c v).toNat < 2 ^ 30 := by
  rw [stepW_eq_T, BitVec.toNat_xor]
  exact xor_lt (T_bound h) hv

theorem polyFrom_bound (ws : List (BitVec 32)) (hw : ∀ w ∈ ws, w.toNat < 2 ^ 30) :
    ∀ {c : BitVec 32}, c.toNat < 2 ^ 30 → (polyFrom c ws).toNat < 2 ^ 30 := by
  induction ws with
  | nil => intro c h; exact h
  | cons w ws ih =>
    intro c h
    exact ih (fun x hx => hw x (by simp [hx])) (stepW_bound h (hw w (by simp)))

/-- The zero-symbol transition is injective on 30-bit states. -/
theorem T_inj0 {c : BitVec 32} (h : c.toNat < 2 ^ 30) (h0 : T c = 0#32) : c = 0#32 := by
  rw [T_eq] at h0
  have hlow : gmix (c >>> 25) &&& 31#32 = 0#32 := by
    have h1 : (((c &&& 0x1ffffff#32) <<< 5) ^^^ gmix (c >>> 25)) &&& 31#32 = 0#32 := by
      rw [h0]; simp
    have h2 : ((c &&& 0x1ffffff#32) <<< 5) &&& 31#32 = 0#32 := by
      apply BitVec.eq_of_toNat_eq
      rw [BitVec.toNat_and, mask_shl_toNat]
      have : (31#32).toNat = 2 ^ 5 - 1 := by decide
      rw [this, Nat.and_two_pow_sub_one_eq_mod]
      simp
    have h3 : (((c &&& 0x1ffffff#32) <<< 5) ^^^ gmix (c >>> 25)) &&& 31#32
        = (((c &&& 0x1ffffff#32) <<< 5) &&& 31#32) ^^^ (gmix (c >>> 25) &&& 31#32) := by
      ext i hi
      simp only [BitVec.getElem_and, BitVec.getElem_xor]
      cases ((c &&& 0x1ffffff#32) <<< 5)[i] <;> cases (gmix (c >>> 25))[i] <;>
        cases (31#32)[i] <;> rfl
    rw [h3, h2, BitVec.zero_xor] at h1
    exact h1
  have htop : (c >>> 25).toNat = 0 := by
    apply gmix_low_table _ (shr25_lt h)
    rw [ofNat_shr25]
    exact hlow
  have htop' : c >>> 25 = 0#32 := BitVec.eq_of_toNat_eq (by simpa using htop)
  rw [htop'] at h0
  have hg : gmix 0#32 = 0#32 := by decide
  rw [hg, BitVec.xor_zero] at h0
  have h5 := congrArg BitVec.toNat h0
  rw [mask_shl_toNat] at h5
  rw [BitVec.toNat_ushiftRight, Nat.shiftRight_eq_div_pow] at htop
  apply BitVec.eq_of_toNat_eq
  simp at h5 ⊢
  omega

/-- Iterated zero-symbol transition. -/
def Tpow : Nat → BitVec 32 → BitVec 32
  | 0, c => c
  | n + 1, c => Tpow n (T c)

theorem Tpow_bound (n : Nat) : ∀ {c : BitVec 32}, c.toNat < 2 ^ 30 → (Tpow n c).toNat < 2 ^ 30 := by
  induction n with
  | zero => intro c h; exact h
  | succ n ih => intro c h; exact ih (T_bound h)

theorem Tpow_inj0 (n : Nat) : ∀ {c : BitVec 32}, c.toNat < 2 ^ 30 → Tpow n c = 0#32 → c = 0#32 := by
  induction n with
  | zero => intro c _ h; exact h
  | succ n ih => intro c h h0; exact T_inj0 h (ih (T_bound h) h0)

theorem polyFrom_zeros (n : Nat) : ∀ c, polyFrom c (List.replicate n 0#32) = Tpow n c := by
  induction n with
  | zero => intro c; rfl
  | succ n ih => intro c; simp only [List.replicate_succ, polyFrom_cons, Tpow, ih]; rfl

/-! ## Small states: the register just shifts -/

theorem stepW_small {c v : BitVec 32} (hc : c.toNat < 2 ^ 25) (hv : v.toNat < 32) :
    (stepW c v).toNat = c.toNat * 32 + v.toNat := by
  have htop : c >>> 25 = 0#32 := by
    apply BitVec.eq_of_toNat_eq
    rw [BitVec.toNat_ushiftRight, Nat.shiftRight_eq_div_pow]
    simp; omega
  have hg : gmix 0#32 = 0#32 := by decide
  rw [stepW_eq_T, T_eq, htop, hg, BitVec.xor_zero, BitVec.toNat_xor, mask_shl_toNat,
    Nat.mod_eq_of_lt hc]
  have h1 : c.toNat * 32 = c.toNat <<< 5 := by rw [Nat.shiftLeft_eq]
  rw [h1]
  have h2 : c.toNat <<< 5 ^^^ v.toNat = c.toNat <<< 5 ||| v.toNat := by
    apply Nat.eq_of_testBit_eq
    intro i
    rw [Nat.testBit_xor, Nat.testBit_or, Nat.testBit_shiftLeft]
    by_cases h : i < 5
    · have h5 : ¬ (5 ≤ i) := by omega
      simp [h5]
    · have : v.toNat.testBit i = false := Nat.testBit_lt_two_pow
        (Nat.lt_of_lt_of_le hv (Nat.pow_le_pow_right (n := 2) (by omega) (by omega : 5 ≤ i)))
      simp [this]
  rw [h2, ← Nat.shiftLeft_add_eq_or_of_lt hv]

/-- Base-32 value of a symbol list. -/
def val32 (vs : Bytes) : Nat := vs.foldl (fun n v => n * 32 + v.toNat) 0

theorem w32_toNat (v : UInt8) : (w32 v).toNat = v.toNat := by
  unfold w32
  have h := v.toNat_lt
  rw [BitVec.toNat_setWidth]
  simp only [UInt8.toNat_toBitVec]
  apply Nat.mod_eq_of_lt
  omega

theorem polyFrom_small (vs : Bytes) (hv : Fits 5 vs) :
    ∀ c : BitVec 32, (c.toNat + 1) * 32 ^ vs.length ≤ 2 ^ 30 →
      (polyFrom c (vs.map w32)).toNat = vs.foldl (fun n v => n * 32 + v.toNat) c.toNat := by
  induction vs with
  | nil => intro c _; rfl
  | cons v vs ih =>
    intro c hc
    simp only [List.map_cons, polyFrom_cons, List.foldl_cons]
    have hpos : 1 ≤ 32 ^ vs.length := Nat.one_le_pow _ _ (by omega)
    simp only [List.length_cons, Nat.pow_succ] at hc
    have h25 : c.toNat + 1 ≤ 2 ^ 25 := by
      have : (c.toNat + 1) * 1 * 32 ≤ (c.toNat + 1) * 32 ^ vs.length * 32 := by
        apply Nat.mul_le_mul_right
        exact Nat.mul_le_mul_left _ hpos
      rw [← Nat.mul_assoc] at hc
      omega
    have hv5 : v.toNat < 32 := hv v (by simp)
    have hs : (stepW c (w32 v)).toNat = c.toNat * 32 + v.toNat := by
      have := stepW_small (c := c) (v := w32 v) (by omega) (by rw [w32_toNat]; exact hv5)
      rw [this, w32_toNat]
    rw [ih (fun x hx => hv x (by simp [hx])), hs]
    rw [hs]
    have : (c.toNat * 32 + v.toNat + 1) * 32 ^ vs.length ≤ (c.toNat + 1) * 32 * 32 ^ vs.length := by
      apply Nat.mul_le_mul_right
      omega
    have e : (c.toNat + 1) * 32 * 32 ^ vs.length = (c.toNat + 1) * (32 ^ vs.length * 32) := by
      rw [Nat.mul_assoc, Nat.mul_comm 32]
    omega

theorem val32_six (vs : Bytes) (hv : Fits 5 vs) (hl : vs.length ≤ 6) :
    (polyFrom 0#32 (vs.map w32)).toNat = val32 vs := by
  have := polyFrom_small vs hv 0#32 (by
    simp only [BitVec.toNat_ofNat, Nat.zero_mod, Nat.zero_add, Nat.one_mul]
    calc 32 ^ vs.length ≤ 32 ^ 6 := Nat.pow_le_pow_right (by omega) hl
      _ = 2 ^ 30 := by decide)
  simpa [val32] using this

theorem val32_inj {xs ys : Bytes} (hx : Fits 5 xs) (hy : Fits 5 ys) (hl : xs.length = ys.length)
    (h : val32 xs = val32 ys) : xs = ys := by
  have key : ∀ (xs ys : Bytes) (a b : Nat), Fits 5 xs → Fits 5 ys → xs.length = ys.length →
      xs.foldl (fun n v => n * 32 + v.toNat) a = ys.foldl (fun n v => n * 32 + v.toNat) b →
      a = b ∧ xs = ys := by
    intro xs
    induction xs with
    | nil =>
      intro ys a b _ _ hl h
      cases ys with
      | nil => exact ⟨h, rfl⟩
      | cons y ys => simp at hl
    | cons x xs ih =>
      intro ys a b hx hy hl h
      cases ys with
      | nil => simp at hl
      | cons y ys =>
        simp only [List.foldl_cons] at h
        obtain ⟨h1, h2⟩ := ih ys _ _ (fun z hz => hx z (by simp [hz]))
          (fun z hz => hy z (by simp [hz])) (by simpa using hl) h
        have a1 : x.toNat < 32 := hx x (by simp)
        have a2 : y.toNat < 32 := hy y (by simp)
        have e1 : a = b := by omega
        have e2 : x.toNat = y.toNat := by omega
        exact ⟨e1, by rw [h2, UInt8.toNat_inj.1 e2]⟩
  exact (key xs ys 0 0 hx hy hl h).2

/-! ## The created checksum verifies, and is the only one that does -/

theorem checksumSyms_fits (pm : BitVec 32) : Fits 5 (checksumSyms pm) := by
  intro x hx
  simp only [checksumSyms, List.mem_map, List.mem_range] at hx
  obtain ⟨i, _, rfl⟩ := hx
  show (BitVec.setWidth 8 _).toNat < 32
  rw [BitVec.toNat_setWidth, BitVec.toNat_and]
  have : (31#32).toNat = 2 ^ 5 - 1 := by decide
  rw [this, Nat.and_two_pow_sub_one_eq_mod]
  omega

@[simp] theorem checksumSyms_length (pm : BitVec 32) : (checksumSyms pm).length = 6 := by
  simp [checksumSyms]

theorem checksumSyms_val {pm : BitVec 32} (h : pm.toNat < 2 ^ 30) :
    val32 (checksumSyms pm) = pm.toNat := by
  have e : ∀ k, (UInt8.ofBitVec (BitVec.setWidth 8 ((pm >>> k) &&& 31#32))).toNat
      = pm.toNat / 2 ^ k % 32 := by
    intro k
    show (BitVec.setWidth 8 _).toNat = _
    rw [BitVec.toNat_setWidth, BitVec.toNat_and, BitVec.toNat_ushiftRight,
      Nat.shiftRight_eq_div_pow]
    have : (31#32).toNat = 2 ^ 5 - 1 := by decide
    rw [this, Nat.and_two_pow_sub_one_eq_mod]
    omega
  simp only [val32, checksumSyms, List.foldl_map]
  have hr : List.range 6 = [0, 1, 2, 3, 4, 5] := by decide
  rw [hr]
  simp only [List.foldl_cons, List.foldl_nil, e]
  omega

theorem polymod_bound (vs : Bytes) : (polymod vs).toNat < 2 ^ 30 := by
  rw [polymod_eq]
  apply polyFrom_bound
  · intro w hw
    simp only [List.mem_map] at hw
    obtain ⟨v, _, rfl⟩ := hw
    rw [w32_toNat]
    have := v.toNat_lt
    omega
  · decide

theorem polymod_append6 (vs ck : Bytes) (hl : ck.length = 6) :
    polymod (vs ++ ck) = polymod (vs ++ List.replicate 6 0) ^^^ polyFrom 0#32 (ck.map w32) := by
  rw [polymod_eq, polymod_eq, List.map_append, List.map_append, polyFrom_append, polyFrom_append]
  rw [← polyFrom_xor _ _ (by simp [hl]), BitVec.xor_zero]
  congr 1
  match ck, hl with
  | [a, b, c, d, e, f], _ => simp [w32, List.replicate]

theorem verify_created (vs : Bytes) :
    polymod (vs ++ checksumSyms (polymod (vs ++ List.replicate 6 0) ^^^ 1#32)) = 1#32 := by
  rw [polymod_append6 _ _ (checksumSyms_length _)]
  have hb : (polymod (vs ++ List.replicate 6 0) ^^^ 1#32).toNat < 2 ^ 30 := by
    rw [BitVec.toNat_xor]
    exact xor_lt (polymod_bound _) (by decide)
  have hv := val32_six _ (checksumSyms_fits (polymod (vs ++ List.replicate 6 0) ^^^ 1#32))
    (Nat.le_of_eq (checksumSyms_length _))
  rw [checksumSyms_val hb] at hv
  rw [BitVec.eq_of_toNat_eq hv, ← BitVec.xor_assoc, BitVec.xor_self, BitVec.zero_xor]

theorem checksum_unique (vs ck : Bytes) (hl : ck.length = 6) (hf : Fits 5 ck)
    (h : polymod (vs ++ ck) = 1#32) :
    ck = checksumSyms (polymod (vs ++ List.replicate 6 0) ^^^ 1#32) := by
  rw [polymod_append6 _ _ hl] at h
  have hb : (polymod (vs ++ List.replicate 6 0) ^^^ 1#32).toNat < 2 ^ 30 := by
    rw [BitVec.toNat_xor]
    exact xor_lt (polymod_bound _) (by decide)
  apply val32_inj hf (checksumSyms_fits _) (by simp [hl])
  rw [checksumSyms_val hb, ← val32_six ck hf (by omega)]
  congr 1
  rw [← h, ← BitVec.xor_assoc, BitVec.xor_self, BitVec.zero_xor]

/-! ## Error detection -/

/-- `T c, T (T c), ...` (`n` of them) are all at least 32. -/
def bigOrbit : Nat → BitVec 32 → Bool
  | 0, _ => true
  | n + 1, c => decide (32 ≤ (T c).toNat) && bigOrbit n (T c)

theorem bigOrbit_spec : ∀ (n : Nat) (c : BitVec 32), bigOrbit n c = true →
    ∀ d, d < n → 32 ≤ (Tpow (d + 1) c).toNat := by
  intro n
  induction n with
  | zero => intro c _ d hd; omega
  | succ n ih =>
    intro c h d hd
    simp only [bigOrbit, Bool.and_eq_true, decide_eq_true_eq] at h
    cases d with
    | zero => exact h.1
    | succ d => exact ih (T c) h.2 d (by omega)

end Nostr.Bech32
