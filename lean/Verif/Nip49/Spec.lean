import Verif.Nip49.Model
import Verif.Bech32.Bip173

/-! # What NIP-49 texts are (specification) -/

namespace Nostr.Nip49.Spec
open Nostr Nostr.Bech32

/-! ## HChaCha20 on a 4×4 matrix of numbers below 2³² (draft-irtf-cfrg-xchacha, section 2.2) -/

/-- A matrix of words: row, column. -/
abbrev Matrix := Nat → Nat → Nat

/-- Rotation of a 32-bit number to the left. -/
def rot (n x : Nat) : Nat := x * 2 ^ n % 2 ^ 32 + x / 2 ^ (32 - n)

def add (x y : Nat) : Nat := (x + y) % 2 ^ 32

/-- The quarter round of RFC 8439, section 2.1. -/
def quarter (a b c d : Nat) : Nat × Nat × Nat × Nat :=
  let a := add a b;  let d := rot 16 (d ^^^ a)
  let c := add c d;  let b := rot 12 (b ^^^ c)
  let a := add a b;  let d := rot 8 (d ^^^ a)
  let c := add c d;  let b := rot 7 (b ^^^ c)
  (a, b, c, d)

/-- Entry `r` of a quarter round's result. -/
def pick (q : Nat × Nat × Nat × Nat) (r : Nat) : Nat :=
  match r with | 0 => q.1 | 1 => q.2.1 | 2 => q.2.2.1 | _ => q.2.2.2

/-- A quarter round on every column. -/
def columns (m : Matrix) : Matrix := fun r c => pick (quarter (m 0 c) (m 1 c) (m 2 c) (m 3 c)) r

/-- Rotate row `r` by `r` places, so that diagonals become columns (`k = 1`), or back (`k = 3`). -/
def shiftRows (k : Nat) (m : Matrix) : Matrix := fun r c => m r ((c + k * r) % 4)

/-- Column round followed by diagonal round. -/
def double (m : Matrix) : Matrix := shiftRows 3 (columns (shiftRows 1 (columns m)))

/-- `n` double rounds. -/
def iterate : Nat → Matrix → Matrix
  | 0, m => m
  | n + 1, m => iterate n (double m)

/-- The little-endian number in four bytes at `4 * i`. -/
def word (b : Bytes) (i : Nat) : Nat :=
  (b.getD (4 * i) 0).toNat + 256 * (b.getD (4 * i + 1) 0).toNat + 65536 * (b.getD (4 * i + 2) 0).toNat
    + 16777216 * (b.getD (4 * i + 3) 0).toNat

/-- Four bytes, little endian. -/
def bytes (n : Nat) : Bytes :=
  [UInt8.ofNat n, UInt8.ofNat (n / 256), UInt8.ofNat (n / 65536), UInt8.ofNat (n / 16777216)]

/-- "expand 32-byte k", two rows of key, one row of nonce. -/
def initial (key nonce : Bytes) : Matrix := fun r c =>
  match r with
  | 0 => word (c!"expand 32-byte k") c
  | 1 => word key c
  | 2 => word key (4 + c)
  | _ => word nonce c

/-- Twenty rounds; the first and the last row are the subkey. -/
def hchacha20 (key nonce : Bytes) : Bytes :=
  let m := iterate 10 (initial key nonce)
  (List.range 4).flatMap (fun c => bytes (m 0 c)) ++ (List.range 4).flatMap (fun c => bytes (m 3 c))

/-! ## NIP-49 -/

/-- The fields of an encrypted key. -/
structure Fields where
  logN : UInt8
  salt : Bytes
  nonce : Bytes
  security : UInt8
  ciphertext : Bytes
  tag : Bytes

/-- Sizes and ranges of the fields. -/
structure Fields.Ok (f : Fields) : Prop where
  cost : 16 ≤ f.logN.toNat ∧ f.logN.toNat ≤ 22
  salt : f.salt.length = 16
  nonce : f.nonce.length = 24
  security : f.security.toNat ≤ 2
  ciphertext : f.ciphertext.length = 32
  tag : f.tag.length = 16

/-- The 91 bytes of NIP-49: version, cost, salt, nonce, security byte, encrypted key and tag. -/
def Fields.bytes (f : Fields) : Bytes :=
  [0x02, f.logN] ++ f.salt ++ f.nonce ++ [f.security] ++ f.ciphertext ++ f.tag

/-- `s` is the bech32 text, under the prefix `ncryptsec`, of these fields. -/
def IsText (f : Fields) (s : Bytes) : Prop := f.Ok ∧ Bip173.IsText (c!"ncryptsec") f.bytes s

/-- Key and nonce given to the IETF cipher for a password and public parameters: the scrypt key with
`N = 2^logN, r = 8, p = 1`, HChaCha20 of it with the first 16 nonce bytes, and four zero bytes followed
by the last eight nonce bytes. -/
def cipherKey (L : Lib) (password salt : Bytes) (logN : UInt8) (nonce : Bytes) : Option (Bytes × Bytes) :=
  (L.scrypt password salt (2 ^ logN.toNat) 8 1).map fun k =>
    (hchacha20 k (nonce.take 16), [0, 0, 0, 0] ++ nonce.drop 16)

/-- What is assumed of OpenSSL: sizes, and that opening succeeds exactly on what sealing the opened
text gives (ChaCha20-Poly1305 is deterministic and recomputes the tag). -/
structure LibOK (L : Lib) : Prop where
  size : ∀ k n a m ct tag, L.sl k n a m = some (ct, tag) → ct.length = m.length ∧ tag.length = 16
  back : ∀ k n a m ct tag, L.open_ k n a ct tag = some m ↔ L.sl k n a m = some (ct, tag)

end Nostr.Nip49.Spec
