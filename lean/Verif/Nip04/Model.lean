import Verif.Basic

/-!
# Model of NIP-04 encryption (src/nip44.c:502-686, the build with noscrypt and OpenSSL)

The block cipher, the shared secret (key.c `nostr_key_ecdh`, see C124) and base64 are parameters. CBC mode
and the padding are OpenSSL's `EVP_aes_256_cbc`, modelled here. Allocation succeeds.
-/

namespace Nostr.Nip04
open Nostr

/-- The block cipher under a key, on blocks of 16 bytes. -/
structure Cipher where
  enc : Bytes → Bytes → Bytes
  dec : Bytes → Bytes → Bytes

/-- Base64 of OpenSSL: the text of some bytes; what `BIO_read` delivers for a text: `none` is a negative
result, `some []` the result 0. -/
structure Codec where
  enc : Bytes → Bytes
  read : Bytes → Option Bytes

/-- Bytewise exclusive or. -/
def xor (a b : Bytes) : Bytes := List.zipWith (· ^^^ ·) a b

/-- The pieces of 16 bytes, the last one possibly shorter; the fuel is the length. -/
def blocks : Nat → Bytes → List Bytes
  | 0, _ => []
  | _ + 1, [] => []
  | f + 1, c :: s => (c :: s).take 16 :: blocks f ((c :: s).drop 16)

/-- CBC mode. -/
def chain (f : Bytes → Bytes) : Bytes → List Bytes → Bytes
  | _, [] => []
  | iv, b :: bs => let c := f (xor b iv); c ++ chain f c bs

/-- CBC mode backwards. -/
def unchain (f : Bytes → Bytes) : Bytes → List Bytes → Bytes
  | _, [] => []
  | iv, c :: cs => xor (f c) iv ++ unchain f c cs

/-- PKCS padding to a multiple of 16: `n` bytes of value `n`, at least one. -/
def pad (m : Bytes) : Bytes :=
  m ++ List.replicate (16 - m.length % 16) (UInt8.ofNat (16 - m.length % 16))

/-- Removal of the padding (`EVP_DecryptFinal_ex`); `none` if it is wrong. -/
def unpad (p : Bytes) : Option Bytes :=
  let n := (p.getLast?.getD 0).toNat
  if n = 0 ∨ n > 16 ∨ p.drop (p.length - n) ≠ List.replicate n (UInt8.ofNat n) then none
  else some (p.take (p.length - n))

/-- `EVP_EncryptInit_ex` to `EVP_EncryptFinal_ex` (nip44.c:534-554). -/
def cbc (C : Cipher) (key iv m : Bytes) : Bytes := chain (C.enc key) iv (blocks (m.length + 16) (pad m))

/-- `EVP_DecryptInit_ex` to `EVP_DecryptFinal_ex` (nip44.c:642-662); `none` is an error: no data, an
incomplete block, wrong padding. -/
def uncbc (C : Cipher) (key iv c : Bytes) : Option Bytes :=
  if c.length = 0 ∨ c.length % 16 ≠ 0 then none else unpad (unchain (C.dec key) iv (blocks c.length c))

/-- Texts of this length and more have a message whose length is not an `int`: 2^31 or more is four thirds of the
encrypted blocks, `?iv=` and 24 bytes of vector. -/
def limit : Nat := 1610612704

/-- nip44.c:502-585 `nostr_nip04_encrypt`. `secret` is the answer of the key agreement, `iv` of the random
generator (`none` is a failure). The length of the text, a `size_t`, is passed to OpenSSL as an `int` (546): its lowest 32
bits. Of a longer text only that many bytes are encrypted. From `limit` on, the lengths that OpenSSL and `snprintf` handle
as `int` overflow; this is not modelled (`ub`). The result buffer (568) has the length of both texts plus five, which is what is
printed. -/
def encrypt (C : Cipher) (B : Codec) (secret iv : Option Bytes) (m : Bytes) : Res Bytes :=
  match secret with
  | none => .err .invalidKey
  | some key =>
      match iv with
      | none => .err .memory
      | some iv =>
          if m.length % 2 ^ 32 ≥ limit then .ub
          else .ok (B.enc (cbc C key iv (m.take (m.length % 2 ^ 32))) ++ c!"?iv=" ++ B.enc iv)

/-- nip44.c:611-618: `strstr` for `?iv=`; the text before and after its first occurrence. -/
def cut : Bytes → Option (Bytes × Bytes)
  | [] => none
  | c :: s =>
      if (c :: s).take 4 = c!"?iv=" then some ([], (c :: s).drop 4)
      else (cut s).map fun p => (c :: p.1, p.2)

/-- What `base64_decode` (nip44.c:220-246) returns: data with its length; 0 with the length `SIZE_MAX`,
because the negative result of `BIO_read` is stored in a `size_t` and compared with `<= 0`; -1 with a
pointer to memory that was released; -1 with NULL. -/
inductive Decoded
  | data (b : Bytes)
  | huge
  | released
  | null
  deriving DecidableEq, Repr

/-- nip44.c:220-246 `base64_decode`. `zero` says whether `malloc(0)` returns a pointer (glibc: yes). -/
def decode (B : Codec) (zero : Bool) (text : Bytes) : Decoded :=
  if text.length = 0 ∧ zero = false then .null
  else match B.read text with
    | none => .huge
    | some [] => .released
    | some (c :: s) => .data (c :: s)

/-- nip44.c:587-686 `nostr_nip04_decrypt`. After a failing `base64_decode` the function goes to `cleanup`
(lines 623, 628), which releases the pointer again (678, 679): undefined behaviour if it was released. A
content of length `SIZE_MAX` makes `EVP_DecryptUpdate` fail (its argument is the `int` -1). -/
def decrypt (C : Cipher) (B : Codec) (zero : Bool) (secret : Option Bytes) (text : Bytes) : Res Bytes :=
  match cut text with
  | none => .err .invalidParam
  | some (content, ivText) =>
      match decode B zero content with
      | .released => .ub
      | .null => .err .invalidParam
      | content =>
          match decode B zero ivText with
          | .released => .ub
          | .null => .err .invalidParam
          | .huge => .err .invalidParam
          | .data iv =>
              if iv.length ≠ 16 then .err .invalidParam
              else match secret with
                | none => .err .invalidKey
                | some key =>
                    match content with
                    | .data c => match uncbc C key iv c with
                        | none => .err .invalidParam
                        | some m => .ok m
                    | _ => .err .invalidParam

end Nostr.Nip04
