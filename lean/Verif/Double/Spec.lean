import Verif.Basic

/-!
# Specification: numbers that pass through cJSON unharmed
-/

namespace Nostr.Double.Spec

/-- Numbers below 2^52, and up to 2^53 those whose last decimal digit is neither 1 nor 9. -/
def Survives (n : Int) : Prop := n.natAbs < 2 ^ 53 ∧ (2 ^ 52 ≤ n.natAbs → n.natAbs % 10 ≠ 1 ∧ n.natAbs % 10 ≠ 9)

instance (n : Int) : Decidable (Survives n) := by unfold Survives; infer_instance

/-- The decimal number of the sign `neg` and the size `a` can be turned into a double and that into a signed 64-bit integer: doubles near
2^63 are 1024 apart below and 2048 above. -/
def Fits (neg : Bool) (a : Nat) : Prop := if neg then a ≤ 2 ^ 63 + 1024 else a < 2 ^ 63 - 512

instance (neg : Bool) (a : Nat) : Decidable (Fits neg a) := by unfold Fits; infer_instance

end Nostr.Double.Spec
