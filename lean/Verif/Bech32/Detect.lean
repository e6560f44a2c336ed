import Verif.Bech32.Table
import Verif.Bech32.Spec

/-! # Helper lemmas for bech32: error detection -/

namespace Nostr.Bech32
open Nostr

theorem Tpow_xor (n : Nat) : ∀ a b, Tpow n (a ^^^ b) = Tpow n a ^^^ Tpow n b := by
  induction n with
  | zero => intro a b; rfl
  | succ n ih => intro a b; simp only [Tpow, T_xor, ih]

theorem polyFrom_state_xor (ws : List (BitVec 32)) :
    ∀ a b, polyFrom (a ^^^ b) ws = polyFrom a ws ^^^ Tpow ws.length b := by
  intro a b
  have h := polyFrom_xor ws (List.replicate ws.length 0#32) (by simp) a b
  rw [polyFrom_zeros] at h
  rw [← h]
  congr 1
  apply List.ext_getElem
  · simp
  · intro i h1 h2
    simp

/-- Same words from different states give different results. -/
theorem polyFrom_state_ne (ws : List (BitVec 32)) {a b : BitVec 32} (ha : a.toNat < 2 ^ 30)
    (hb : b.toNat < 2 ^ 30) (hne : a ≠ b) : polyFrom a ws ≠ polyFrom b ws := by
  intro h
  have e : b = a ^^^ (a ^^^ b) := by rw [← BitVec.xor_assoc, BitVec.xor_self, BitVec.zero_xor]
  rw [e, polyFrom_state_xor] at h
  have h0 : Tpow ws.length (a ^^^ b) = 0#32 := by
    have h1 := congrArg (polyFrom a ws ^^^ ·) h
    simp only [← BitVec.xor_assoc, BitVec.xor_self, BitVec.zero_xor] at h1
    exact h1.symm
  have h2 := Tpow_inj0 _ (by rw [BitVec.toNat_xor]; exact xor_lt ha hb) h0
  apply hne
  have h3 := congrArg (a ^^^ ·) h2
  simp only [← BitVec.xor_assoc, BitVec.xor_self, BitVec.zero_xor, BitVec.xor_zero] at h3
  exact h3.symm

theorem w32_xor_bound {x y : UInt8} (hx : x.toNat < 32) (hy : y.toNat < 32) :
    (w32 x ^^^ w32 y).toNat < 32 := by
  rw [BitVec.toNat_xor, w32_toNat, w32_toNat]
  exact xor_lt (k := 5) hx hy

theorem w32_inj {x y : UInt8} (h : w32 x = w32 y) : x = y := by
  have := congrArg BitVec.toNat h
  rw [w32_toNat, w32_toNat] at this
  exact UInt8.toNat_inj.1 this

theorem xor_eq_zero {a b : BitVec 32} (h : a ^^^ b = 0#32) : a = b := by
  have h3 := congrArg (a ^^^ ·) h
  simp only [← BitVec.xor_assoc, BitVec.xor_self, BitVec.zero_xor, BitVec.xor_zero] at h3
  exact h3.symm

theorem w32_lt30 (v : UInt8) : (w32 v).toNat < 2 ^ 30 := by
  rw [w32_toNat]; have := v.toNat_lt; omega

/-- One differing symbol after a state difference that is a single shifted symbol: the states stay
different. -/
theorem second_error (xs ys : Bytes) (hl : xs.length = ys.length) (hx : Fits 5 xs) (hy : Fits 5 ys) :
    ∀ (d : Nat) (e : BitVec 32) (a b : BitVec 32), e.toNat < 32 → e ≠ 0#32 →
      a.toNat < 2 ^ 30 → b.toNat < 2 ^ 30 → a ^^^ b = Tpow d e → d + xs.length ≤ 1022 →
      hamming xs ys ≤ 1 → polyFrom a (xs.map w32) ≠ polyFrom b (ys.map w32) := by
  induction xs generalizing ys with
  | nil =>
    intro d e a b he he0 ha hb hab hd hh
    cases ys with
    | nil =>
      intro h
      simp only [List.map_nil, polyFrom_nil] at h
      rw [h, BitVec.xor_self] at hab
      exact he0 (Tpow_inj0 d (by omega) hab.symm)
    | cons y ys => simp at hl
  | cons x xs ih =>
    intro d e a b he he0 ha hb hab hd hh
    cases ys with
    | nil => simp at hl
    | cons y ys =>
      simp only [List.map_cons, polyFrom_cons]
      have hx5 : x.toNat < 32 := hx x (by simp)
      have hy5 : y.toNat < 32 := hy y (by simp)
      have hTp : ∀ n (c : BitVec 32), Tpow (n + 1) c = T (Tpow n c) := by
        intro n
        induction n with
        | zero => intro c; rfl
        | succ n ihn => intro c; exact ihn (T c)
      by_cases hxy : x = y
      · subst hxy
        apply ih ys (by simpa using hl) (fun z hz => hx z (by simp [hz]))
          (fun z hz => hy z (by simp [hz])) (d + 1) e _ _ he he0
          (stepW_bound ha (w32_lt30 _)) (stepW_bound hb (w32_lt30 _))
        · rw [← stepW_xor, BitVec.xor_self, hab, hTp]; rfl
        · simp at hd; omega
        · simpa [hamming] using hh
      · have hh' : hamming xs ys = 0 := by simp [hamming, hxy] at hh; omega
        have hzero : ∀ (xs ys : Bytes), xs.length = ys.length → hamming xs ys = 0 → xs = ys := by
          intro xs
          induction xs with
          | nil => intro ys h1 _; cases ys with
            | nil => rfl
            | cons y ys => simp at h1
          | cons x xs ih2 =>
            intro ys h1 h2
            cases ys with
            | nil => simp at h1
            | cons y ys =>
              simp only [hamming] at h2
              by_cases hc : x = y
              · rw [hc, ih2 ys (by simpa using h1) (by omega)]
              · simp [hc] at h2
        have hxs : xs = ys := hzero xs ys (by simpa using hl) hh'
        subst hxs
        apply polyFrom_state_ne
        · exact stepW_bound ha (w32_lt30 _)
        · exact stepW_bound hb (w32_lt30 _)
        · intro h
          have h1 : stepW a (w32 x) ^^^ stepW b (w32 y) = 0#32 := by rw [h, BitVec.xor_self]
          rw [← stepW_xor, hab, stepW_eq_T] at h1
          have h2 : T (Tpow d e) = w32 x ^^^ w32 y := xor_eq_zero h1
          have h3 : 32 ≤ (Tpow (d + 1) e).toNat := by
            have ho := orbit_table e.toNat he (fun h => he0 (BitVec.eq_of_toNat_eq (by simpa using h)))
            rw [BitVec.ofNat_toNat, BitVec.setWidth_eq] at ho
            exact bigOrbit_spec 1022 e ho d (by simp at hd; omega)
          rw [hTp, h2] at h3
          have := w32_xor_bound hx5 hy5
          omega

/-- Two symbol lists that differ in one or two places lead to different checksum states. -/
theorem detect_two (xs ys : Bytes) (hl : xs.length = ys.length) (hx : Fits 5 xs) (hy : Fits 5 ys)
    (hlen : xs.length ≤ 1023) :
    ∀ c : BitVec 32, c.toNat < 2 ^ 30 → 1 ≤ hamming xs ys → hamming xs ys ≤ 2 →
      polyFrom c (xs.map w32) ≠ polyFrom c (ys.map w32) := by
  induction xs generalizing ys with
  | nil => intro c hc h1 h2; simp [hamming] at h1
  | cons x xs ih =>
    intro c hc h1 h2
    cases ys with
    | nil => simp at hl
    | cons y ys =>
      simp only [List.map_cons, polyFrom_cons]
      by_cases hxy : x = y
      · subst hxy
        simp only [hamming] at h1 h2
        apply ih ys (by simpa using hl) (fun z hz => hx z (by simp [hz]))
          (fun z hz => hy z (by simp [hz])) (by simp at hlen; omega) _
          (stepW_bound hc (w32_lt30 _))
        · simpa using h1
        · simpa using h2
      · simp only [hamming, hxy, if_false] at h1 h2
        apply second_error xs ys (by simpa using hl) (fun z hz => hx z (by simp [hz]))
          (fun z hz => hy z (by simp [hz])) 0 (w32 x ^^^ w32 y)
        · exact w32_xor_bound (hx x (by simp)) (hy y (by simp))
        · intro h; exact hxy (w32_inj (xor_eq_zero h))
        · exact stepW_bound hc (w32_lt30 _)
        · exact stepW_bound hc (w32_lt30 _)
        · rw [← stepW_xor, BitVec.xor_self, stepW_eq_T, T_zero, BitVec.zero_xor]; rfl
        · simp at hlen; omega
        · omega

end Nostr.Bech32
