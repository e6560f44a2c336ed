import Verif.Nip44.Model
import Verif.Config.Props

/-! # Helper lemmas for NIP-44 -/

namespace Nostr.Nip44
open Nostr

theorem nextPower_spec (len : Nat) (hl : len < 2 ^ 16) : ∀ (f j : Nat), j + f = 33 → j ≤ 17 →
    (j = 0 ∨ 2 ^ (j - 1) ≤ len) → ∃ k, nextPower len f (2 ^ j) = some (2 ^ k) ∧ len < 2 ^ k ∧
      (k = 0 ∨ 2 ^ (k - 1) ≤ len) := by
  intro f
  induction f with
  | zero => intro j h1 h2; omega
  | succ f ih =>
    intro j h1 h2 h3
    unfold nextPower
    split
    · rename_i hle
      have hj : j < 16 := by
        rcases Nat.lt_or_ge j 16 with h | h
        · exact h
        · have := Nat.pow_le_pow_right (n := 2) (by omega) h
          omega
      have hb : 2 ^ j < 2 ^ 16 := Nat.pow_lt_pow_right (by omega) hj
      rw [if_neg (by omega), ← Nat.pow_succ]
      exact ih (j + 1) (by omega) (by omega) (Or.inr (by simpa using hle))
    · exact ⟨j, rfl, by omega, h3⟩

/-- The chunk size used for a length. -/
theorem paddedLen_spec {len : Nat} (h1 : 32 < len) (h2 : len < 2 ^ 16) :
    ∃ k, 5 ≤ k ∧ 2 ^ k ≤ len ∧ len < 2 ^ (k + 1) ∧
      paddedLen len = 2 ^ (if k ≤ 8 then 5 else k - 3) * ((len - 1) / 2 ^ (if k ≤ 8 then 5 else k - 3) + 1) := by
  obtain ⟨k, e1, e2, e3⟩ := nextPower_spec len h2 33 0 (by omega) (by omega) (Or.inl rfl)
  have hk : 6 ≤ k := by
    rcases Nat.lt_or_ge k 6 with h | h
    · have : 2 ^ k ≤ 2 ^ 5 := Nat.pow_le_pow_right (by omega) (by omega)
      omega
    · exact h
  have e3' : 2 ^ (k - 1) ≤ len := by rcases e3 with h | h <;> omega
  refine ⟨k - 1, by omega, e3', by rw [show k - 1 + 1 = k by omega]; exact e2, ?_⟩
  unfold paddedLen
  rw [if_neg (by omega), show (1 : Nat) = 2 ^ 0 from rfl, e1]
  simp only
  have hd : 2 ^ k / 2 = 2 ^ (k - 1) := by
    rw [show k = (k - 1) + 1 by omega, Nat.pow_succ]
    simp
  rw [hd]
  have hc : (if 2 ^ (k - 1) ≤ 256 then 32 else 2 ^ (k - 1) / 8) = 2 ^ (if k - 1 ≤ 8 then 5 else k - 1 - 3) := by
    by_cases h8 : k - 1 ≤ 8
    · rw [if_pos h8, if_pos]
      calc 2 ^ (k - 1) ≤ 2 ^ 8 := Nat.pow_le_pow_right (by omega) h8
        _ = 256 := rfl
    · rw [if_neg h8, if_neg]
      · rw [show k - 1 = (k - 1 - 3) + 3 by omega, Nat.pow_add]
        simp
      · have : 2 ^ 9 ≤ 2 ^ (k - 1) := Nat.pow_le_pow_right (by omega) (by omega)
        omega
  rw [hc]

theorem mul_ceil {c n : Nat} (hc : 0 < c) (hn : 0 < n) :
    n ≤ c * ((n - 1) / c + 1) ∧ ∀ m, c ∣ m → n ≤ m → c * ((n - 1) / c + 1) ≤ m := by
  constructor
  · have := Nat.lt_mul_div_succ (n - 1) hc
    omega
  · rintro m ⟨q, rfl⟩ hm
    apply Nat.mul_le_mul_left
    have : (n - 1) / c < q := by
      rw [Nat.div_lt_iff_lt_mul hc]
      rw [Nat.mul_comm]
      omega
    omega

theorem paddedLen_ge {len : Nat} (h : len < 2 ^ 16) : len ≤ paddedLen len ∧ 32 ≤ paddedLen len := by
  rcases Nat.lt_or_ge 32 len with h1 | h1
  · obtain ⟨k, -, -, -, e⟩ := paddedLen_spec h1 h
    rw [e]
    have := (mul_ceil (c := 2 ^ (if k ≤ 8 then 5 else k - 3)) (n := len) (Nat.pow_pos (by omega)) (by omega)).1
    omega
  · unfold paddedLen
    rw [if_pos h1]
    omega

theorem paddedLen_mono {a b : Nat} (hab : a ≤ b) (hb : b < 2 ^ 16) : paddedLen a ≤ paddedLen b := by
  rcases Nat.lt_or_ge 32 a with h1 | h1
  · obtain ⟨i, i0, i1, i2, ea⟩ := paddedLen_spec h1 (by omega)
    obtain ⟨j, j0, j1, j2, eb⟩ := paddedLen_spec (len := b) (by omega) hb
    have hij : i ≤ j := by
      rcases Nat.lt_or_ge j i with h | h
      · have : 2 ^ (j + 1) ≤ 2 ^ i := Nat.pow_le_pow_right (by omega) h
        omega
      · exact h
    rw [ea]
    apply (mul_ceil (Nat.pow_pos (by omega)) (by omega)).2
    · rw [eb]
      apply Nat.dvd_trans (Nat.pow_dvd_pow 2 (n := if j ≤ 8 then 5 else j - 3) ?_) (Nat.dvd_mul_right _ _)
      split <;> split <;> omega
    · exact Nat.le_trans hab (paddedLen_ge hb).1
  · have := (paddedLen_ge hb).2
    unfold paddedLen
    rw [if_pos h1]
    unfold paddedLen at this
    exact this

theorem paddedLen_top {a : Nat} (h : a < 2 ^ 16) : paddedLen a ≤ 65536 := by
  have h1 := paddedLen_mono (a := a) (b := 65535) (by omega) (by omega)
  have h2 : paddedLen 65535 = 65536 := by decide +kernel
  omega

theorem paddedLen_limit {a : Nat} (h : a < 2 ^ 16) : paddedLen a ≤ 65533 ↔ a ≤ 61440 := by
  constructor
  · intro h1
    rcases Nat.lt_or_ge 61440 a with h2 | h2
    · have h3 := paddedLen_mono (a := 61441) (b := a) (by omega) h
      have h4 : paddedLen 61441 = 65536 := by decide +kernel
      omega
    · exact h2
  · intro h1
    have h3 := paddedLen_mono (a := a) (b := 61440) h1 (by omega)
    have h4 : paddedLen 61440 = 61440 := by decide +kernel
    omega

theorem len_bytes {n : Nat} (h : n < 2 ^ 16) :
    (UInt8.ofNat (n / 256 % 256)).toNat * 256 + (UInt8.ofNat (n % 256)).toNat = n := by
  rw [UInt8.toNat_ofNat', UInt8.toNat_ofNat']
  omega

theorem pad_ok {cfg : Option Config.Config} {m : Bytes} (h1 : minSize cfg ≤ m.length)
    (h2 : m.length ≤ maxSize cfg) (h3 : maxSize cfg ≤ 65535) :
    pad cfg m = .ok (UInt8.ofNat (m.length / 256 % 256) :: UInt8.ofNat (m.length % 256) ::
      (m ++ List.replicate (paddedLen m.length - m.length) 0)) := by
  unfold pad
  have := (paddedLen_ge (len := m.length) (by omega)).1
  rw [if_neg (by omega), if_neg (by omega)]

theorem unpad_pad {cfg : Option Config.Config} {m : Bytes} (h1 : 1 ≤ m.length)
    (h2 : m.length ≤ maxSize cfg) (h3 : maxSize cfg ≤ 65535) :
    unpad cfg (UInt8.ofNat (m.length / 256 % 256) :: UInt8.ofNat (m.length % 256) ::
      (m ++ List.replicate (paddedLen m.length - m.length) 0)) = .ok m := by
  have hp := (paddedLen_ge (len := m.length) (by omega)).1
  unfold unpad
  simp only [len_bytes (n := m.length) (by omega)]
  rw [if_neg (by omega), if_neg, if_neg]
  · rw [List.take_left' rfl]
  · rw [List.length_append]; omega
  · simp only [List.length_cons, List.length_append, List.length_replicate, ne_eq, Decidable.not_not]
    omega

theorem maxSize_le {cfg : Option Config.Config} (h : ∀ c ∈ cfg, Config.Spec.InRange c) :
    maxSize cfg ≤ 65535 ∧ 1 ≤ minSize cfg := by
  cases cfg with
  | none => simp [maxSize, minSize]
  | some c =>
    have := h c rfl
    simp only [maxSize, minSize, Option.elim]
    exact ⟨this.1.2.2, this.1.1⟩

end Nostr.Nip44
