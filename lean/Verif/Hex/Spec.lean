import Verif.Basic

/-! # Vocabulary for the hex codecs, independent of the model -/

namespace Nostr.Hex.Spec
open Nostr

/-- The two lower-case hex digits of a byte. -/
def hexOf (b : UInt8) : Bytes :=
  let d (n : Nat) : UInt8 := if n < 10 then UInt8.ofNat (48 + n) else UInt8.ofNat (87 + n)
  [d (b.toNat / 16), d (b.toNat % 16)]

/-- Lower-case hex text of a byte string. -/
def hexText (bs : Bytes) : Bytes := bs.flatMap hexOf

/-- `A`..`F` to `a`..`f`, everything else unchanged. -/
def lowerHex (s : Bytes) : Bytes :=
  s.map fun c => if 0x41 ≤ c.toNat ∧ c.toNat ≤ 0x46 then UInt8.ofNat (c.toNat + 32) else c

/-- A hex digit, either case. -/
def IsHexDigit (c : UInt8) : Prop :=
  (0x30 ≤ c.toNat ∧ c.toNat ≤ 0x39) ∨ (0x41 ≤ c.toNat ∧ c.toNat ≤ 0x46) ∨
    (0x61 ≤ c.toNat ∧ c.toNat ≤ 0x66)

end Nostr.Hex.Spec
