import Verif.Bech32.Poly

/-! # Kernel-checked table for double-error detection

The table is computed on natural numbers, with every state evaluated before it is used; this keeps the kernel's
work small. -/

namespace Nostr.Bech32
open Nostr

/-- `f n`, with `n` evaluated first. -/
def forced {α : Type} (n : Nat) (f : Nat → α) : α := Nat.rec (f 0) (fun k _ => f (Nat.succ k)) n

theorem forced_eq {α : Type} (n : Nat) (f : Nat → α) : forced n f = f n := by cases n <;> rfl

/-- `gmix` on numbers. -/
def gmixN (t : Nat) : Nat :=
  Nat.xor (Nat.mul (Nat.mod t 2) 0x3b6a57b2) (Nat.xor (Nat.mul (Nat.mod (Nat.div t 2) 2) 0x26508e6d)
    (Nat.xor (Nat.mul (Nat.mod (Nat.div t 4) 2) 0x1ea119fa) (Nat.xor (Nat.mul (Nat.mod (Nat.div t 8) 2) 0x3d4233dd)
      (Nat.mul (Nat.mod (Nat.div t 16) 2) 0x2a1462b3))))

theorem gmixN_table : ∀ n < 32, (gmix (BitVec.ofNat 32 n)).toNat = gmixN n := by decide +kernel

/-- `T` on numbers. -/
def stepN (c : Nat) : Nat := forced (Nat.div c 33554432) fun t => Nat.xor (Nat.mul (Nat.mod c 33554432) 32) (gmixN t)

theorem stepN_eq {c : BitVec 32} (h : c.toNat < 2 ^ 30) : (T c).toNat = stepN c.toNat := by
  unfold stepN
  rw [forced_eq, T_eq, BitVec.toNat_xor, mask_shl_toNat]
  have h1 := gmixN_table _ (shr25_lt h)
  rw [ofNat_shr25, BitVec.toNat_ushiftRight, Nat.shiftRight_eq_div_pow] at h1
  rw [h1]
  rfl

/-- `bigOrbit` on numbers. -/
def orbitN (n : Nat) : Nat → Bool :=
  Nat.rec (fun _ => true) (fun _ ih c => forced (stepN c) fun d => cond (Nat.ble 32 d) (ih d) false) n

theorem orbitN_spec : ∀ (n : Nat) (c : BitVec 32), c.toNat < 2 ^ 30 → orbitN n c.toNat = true → bigOrbit n c = true := by
  intro n
  induction n with
  | zero => intro c _ _; rfl
  | succ n ih =>
    intro c hc h
    have h1 : forced (stepN c.toNat) (fun d => cond (Nat.ble 32 d) (orbitN n d) false) = true := h
    rw [forced_eq, ← stepN_eq hc] at h1
    unfold bigOrbit
    cases hb : Nat.ble 32 (T c).toNat with
    | false => rw [hb] at h1; simp at h1
    | true =>
      rw [hb] at h1
      rw [ih (T c) (T_bound hc) h1]
      simpa using Nat.le_of_ble_eq_true hb

theorem orbitN_table : ∀ x < 32, x ≠ 0 → orbitN 1022 x = true := by decide +kernel

/-- Whole table: a nonzero symbol shifted by 1..1022 positions is never a single symbol again. -/
theorem orbit_table : ∀ x < 32, x ≠ 0 → bigOrbit 1022 (BitVec.ofNat 32 x) = true := by
  intro x hx h0
  have h1 : (BitVec.ofNat 32 x).toNat = x := by simp; omega
  exact orbitN_spec 1022 _ (by rw [h1]; omega) (by rw [h1]; exact orbitN_table x hx h0)

end Nostr.Bech32
