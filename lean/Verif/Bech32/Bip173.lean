import Verif.Bits

/-! # BIP-173 in plain arithmetic (specification; nothing here refers to the model) -/

namespace Nostr.Bech32.Bip173
open Nostr

/-- The generator coefficients published in BIP-173. -/
def gen : List Nat := [0x3b6a57b2, 0x26508e6d, 0x1ea119fa, 0x3d4233dd, 0x2a1462b3]

/-- One round of the published checksum function. -/
def round (chk v : Nat) : Nat :=
  gen.zipIdx.foldl (fun c g => if (chk / 2 ^ 25).testBit g.2 then c ^^^ g.1 else c)
    ((chk % 2 ^ 25) * 32 ^^^ v)

/-- The published checksum function. -/
def polymod (values : List Nat) : Nat := values.foldl round 1

/-- Expansion of the human-readable part: high bits, zero, low five bits. -/
def expand (hrp : Bytes) : List Nat :=
  hrp.map (·.toNat / 32) ++ [0] ++ hrp.map (·.toNat % 32)

/-- The character of a five-bit value. -/
def char (v : Nat) : UInt8 := (c!"qpzry9x8gf2tvdw0s3jn54khce6mua7l").getD v 0

/-- Bits of the numbers in order, most significant first, `w` bits each. -/
def bits (w : Nat) (vs : List Nat) : List Bool := vs.flatMap (bitsBE w)

/-- `text` is the bech32 text of `payload` under the prefix `hrp`: prefix, separator, the payload's bits
in groups of five filled up with fewer than five zero bits, and six symbols making the checksum 1. -/
def IsText (hrp payload text : Bytes) : Prop :=
  ∃ syms ck : List Nat, (∀ v ∈ syms ++ ck, v < 32) ∧ ck.length = 6 ∧
    (∃ k < 5, bits 5 syms = bits 8 (payload.map (·.toNat)) ++ List.replicate k false) ∧
    polymod (expand hrp ++ syms ++ ck) = 1 ∧
    text = hrp ++ c!"1" ++ (syms ++ ck).map char

/-- The published test vector `A12UEL5L` in lower case. -/
example : IsText (c!"a") [] (c!"a12uel5l") :=
  ⟨[], [10, 28, 25, 31, 20, 31], by decide, rfl, ⟨0, by decide, rfl⟩, by decide +kernel, by decide⟩

end Nostr.Bech32.Bip173
