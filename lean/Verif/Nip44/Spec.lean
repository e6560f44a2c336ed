import Verif.Nip44.Model
import Verif.Config.Spec

/-! # Vocabulary for NIP-44 -/

namespace Nostr.Nip44.Spec
open Nostr Nostr.Nip44

/-- Round `n` up to a multiple of `c`. -/
def roundUp (n c : Nat) : Nat := (n + c - 1) / c * c

/-- The padded length the library uses: a multiple of 32 up to 511 bytes, afterwards of an eighth of the
largest power of two not above the length. -/
def libPadded (len : Nat) : Nat :=
  if len ≤ 32 then 32 else roundUp len (max 32 (2 ^ len.log2 / 8))

/-- The padded length of the NIP-44 document: `next_power = 1 << (floor(log2(len - 1)) + 1)`, chunk 32 if
`next_power ≤ 256`, else `next_power / 8`. -/
def nipPadded (len : Nat) : Nat :=
  if len ≤ 32 then 32
  else
    let next := 2 ^ ((len - 1).log2 + 1)
    let chunk := if next ≤ 256 then 32 else next / 8
    chunk * ((len - 1) / chunk + 1)

/-- Big-endian length, text and padding. -/
def framed (m z : Bytes) : Bytes :=
  UInt8.ofNat (m.length / 256) :: UInt8.ofNat (m.length % 256) :: (m ++ z)

/-- What is assumed of the cryptography: both sides agree on the conversation key, the stream cipher is
its own inverse and keeps lengths, the MAC has 32 bytes. -/
structure NcOK (N : Nc) (a pa b pb : Bytes) : Prop where
  agree : N.conv a pb = N.conv b pa
  stream : ∀ ck n x, N.crypt ck n (N.crypt ck n x) = x
  len : ∀ ck n x, (N.crypt ck n x).length = x.length
  mac : ∀ k x, (N.mac k x).length = 32

/-- What is assumed of base64: decoding inverts encoding, and no encoding starts with `#`. -/
structure B64OK (B : B64) : Prop where
  inv : ∀ x, B.dec (B.enc x) = some x
  plain : ∀ x, (B.enc x).head? ≠ some 0x23

/-- The configuration in force (if any) is in its documented ranges (C44). -/
def CfgOK (cfg : Option Config.Config) : Prop := ∀ c ∈ cfg, Config.Spec.InRange c

end Nostr.Nip44.Spec
