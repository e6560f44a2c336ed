import Verif.Bech32.Model

/-!
# Model of src/nip49.c (password-encrypted private keys)

OpenSSL's scrypt and (IETF) ChaCha20-Poly1305 are parameters (`Lib`); the library's own HChaCha20 and
the XChaCha20 construction around the IETF cipher are modelled.  `secure_wipe` of local buffers is
modelled in `Verif/Wipe/Ncrypt.lean`.  The C functions called with `NULL` arguments return `NOSTR_ERR_INVALID_PARAM` and are
not modelled.
-/

namespace Nostr.Nip49
open Nostr Nostr.Bech32

/-- nip49.c:24-27 `load32_le`; the reads `p[0..3]` are inside the array for the callers' arguments
(missing bytes would read as 0 here). -/
def load32 (p : Bytes) : UInt32 :=
  let at_ (i : Nat) : UInt32 := (p.getD i 0).toUInt32
  at_ 0 ||| (at_ 1 <<< 8) ||| (at_ 2 <<< 16) ||| (at_ 3 <<< 24)

/-- nip49.c:29-35 `store32_le`. -/
def store32 (v : UInt32) : Bytes :=
  [(v &&& 0xff).toUInt8, ((v >>> 8) &&& 0xff).toUInt8, ((v >>> 16) &&& 0xff).toUInt8,
    ((v >>> 24) &&& 0xff).toUInt8]

/-- nip49.c:55 `ROTL32` (used with `n = 7, 8, 12, 16`). -/
def rotl (v : UInt32) (n : UInt32) : UInt32 := (v <<< n) ||| (v >>> (32 - n))

/-- nip49.c:56-60 `QR` on four distinct entries of `state[16]`, written back in place. -/
def qr (s : List UInt32) (i j k l : Nat) : List UInt32 :=
  let a := s.getD i 0
  let b := s.getD j 0
  let c := s.getD k 0
  let d := s.getD l 0
  let a := a + b
  let d := rotl (d ^^^ a) 16
  let c := c + d
  let b := rotl (b ^^^ c) 12
  let a := a + b
  let d := rotl (d ^^^ a) 8
  let c := c + d
  let b := rotl (b ^^^ c) 7
  (((s.set i a).set j b).set k c).set l d

/-- nip49.c:63-70, the loop body. -/
def doubleRound (s : List UInt32) : List UInt32 :=
  let s := qr s 0 4 8 12
  let s := qr s 1 5 9 13
  let s := qr s 2 6 10 14
  let s := qr s 3 7 11 15
  let s := qr s 0 5 10 15
  let s := qr s 1 6 11 12
  let s := qr s 2 7 8 13
  qr s 3 4 9 14

/-- nip49.c:62-71: `n` more iterations. -/
def rounds : Nat → List UInt32 → List UInt32
  | 0, s => s
  | n + 1, s => rounds n (doubleRound s)

/-- nip49.c:37-84 `hchacha20`. -/
def hchacha20 (key nonce : Bytes) : Bytes :=
  let state : List UInt32 :=
    [0x61707865, 0x3320646e, 0x79622d32, 0x6b206574] ++
    (List.range 8).map (fun i => load32 (key.drop (i * 4))) ++
    (List.range 4).map (fun i => load32 (nonce.drop (i * 4)))
  let state := rounds 10 state
  (List.range 4).flatMap (fun i => store32 (state.getD i 0)) ++
  (List.range 4).flatMap (fun i => store32 (state.getD (12 + i) 0))

/-- The OpenSSL functions used; `none` is a failure return.
`scrypt password salt N r p` (`EVP_PBE_scrypt`, 32 output bytes), `sl key nonce12 aad plaintext`
(ciphertext and 16-byte tag) and `open_ key nonce12 aad ciphertext tag` (`EVP_chacha20_poly1305`). -/
structure Lib where
  scrypt : Bytes → Bytes → Nat → Nat → Nat → Option Bytes
  sl : Bytes → Bytes → Bytes → Bytes → Option (Bytes × Bytes)
  open_ : Bytes → Bytes → Bytes → Bytes → Bytes → Option Bytes

/-- nip49.c:100-101 / 153-154: `nonce12`. -/
def nonce12 (nonce24 : Bytes) : Bytes := List.replicate 4 0 ++ (nonce24.drop 16).take 8

/-- nip49.c:86-136 `xchacha20_poly1305_encrypt`. -/
def xEncrypt (L : Lib) (key nonce24 aad pt : Bytes) : Option (Bytes × Bytes) :=
  L.sl (hchacha20 key nonce24) (nonce12 nonce24) aad pt

/-- nip49.c:138-189 `xchacha20_poly1305_decrypt`. -/
def xDecrypt (L : Lib) (key nonce24 aad ct tag : Bytes) : Option Bytes :=
  L.open_ (hchacha20 key nonce24) (nonce12 nonce24) aad ct tag

/-- nip49.c:191-205 `derive_key_scrypt`. -/
def deriveKey (L : Lib) (password salt : Bytes) (logN : UInt8) : Option Bytes :=
  L.scrypt password salt (2 ^ logN.toNat) 8 1

/-- nip49.c:207-245 `decode_ncryptsec` (`data5bit[160]`, 91 output bytes). -/
def decode (s : Bytes) : Res Bytes :=
  if s.take 10 ≠ c!"ncryptsec1" then .err .encoding
  else if s.length < 20 ∨ s.length > 200 then .err .encoding
  else if s.length - 10 > 160 then .err .encoding
  else do
    let data ← readSyms 160 0 (s.drop 10)
    if verifyChecksum c!"ncryptsec" data = false then .err .encoding
    else
      let payload := convertBits (data.take (data.length - 6)) 91 5 8 false
      if payload.length ≠ 91 then .err .encoding else .ok payload

/-- nip49.c:247-322 `nostr_ncryptsec_encrypt`; `salt` and `nonce` are the bytes drawn by `RAND_bytes`,
`none` when it fails.  `ncryptsec_size` is `size`, the result is the text written. -/
def encrypt (L : Lib) (salt nonce : Option Bytes) (privkey password : Bytes) (logN : UInt8) (size : Nat) :
    Res Bytes :=
  if password.length = 0 ∨ logN < 16 ∨ logN > 22 ∨ size < 163 then .err .invalidParam
  else match salt, nonce with
    | some salt, some nonce =>
      match deriveKey L password salt logN with
      | none => .err .encoding
      | some key =>
        match xEncrypt L key nonce [2] privkey with
        | none => .err .encoding
        | some (ct, mac) =>
          let payload : Bytes := [2, logN] ++ salt ++ nonce ++ [2] ++ ct ++ mac
          let data := convertBits payload 146 8 5 true
          if data = [] then .err .encoding
          else match createChecksum c!"ncryptsec" data with
            | none => .err .encoding
            | some ck => .ok (c!"ncryptsec1" ++ data.map charsetAt ++ ck.map charsetAt)
    | _, _ => .err .memory

/-- nip49.c:339-356 / 395-406: the checks on the decoded payload shared by decryption and validation. -/
def checkPayload (p : Bytes) : Res Unit :=
  if p.getD 0 0 ≠ 2 then .err .notSupported
  else if p.getD 1 0 < 16 ∨ p.getD 1 0 > 22 then .err .invalidParam
  else if p.getD 42 0 > 2 then .err .invalidParam
  else .ok ()

/-- nip49.c:324-381 `nostr_ncryptsec_decrypt`. -/
def decrypt (L : Lib) (s password : Bytes) : Res Bytes :=
  if password.length = 0 then .err .invalidParam
  else do
    let p ← decode s
    checkPayload p
    let salt := (p.drop 2).take 16
    let nonce := (p.drop 18).take 24
    let sec := p.getD 42 0
    let ct := (p.drop 43).take 32
    let mac := (p.drop 75).take 16
    match deriveKey L password salt (p.getD 1 0) with
    | none => .err .encoding
    | some key =>
      match xDecrypt L key nonce [sec] ct mac with
      | none => .err .invalidSignature
      | some k => .ok k

/-- nip49.c:324-381 again, with the caller's 32-byte key buffer: `EVP_DecryptUpdate` (line 176) stores
the deciphered bytes before the tag is checked, so a failing decryption has `scribbled` something there;
line 370 wipes it. Returns the status and the buffer's final content. -/
def decryptInto (L : Lib) (scribbled buf s password : Bytes) : Res Unit × Bytes :=
  if password.length = 0 then (.err .invalidParam, buf)
  else match decode s with
    | .ub => (.ub, buf)
    | .err e => (.err e, buf)
    | .ok p =>
      match checkPayload p with
      | .ub => (.ub, buf)
      | .err e => (.err e, buf)
      | .ok _ =>
        match deriveKey L password ((p.drop 2).take 16) (p.getD 1 0) with
        | none => (.err .encoding, buf)
        | some key =>
          match xDecrypt L key ((p.drop 18).take 24) [p.getD 42 0] ((p.drop 43).take 32) ((p.drop 75).take 16) with
          | none => (.err .invalidSignature, scribbled.map fun _ => 0)
          | some k => (.ok (), k)

/-- nip49.c:383-410 `nostr_ncryptsec_validate`. -/
def validate (s : Bytes) : Res Unit := do
  let p ← decode s
  checkPayload p

end Nostr.Nip49
