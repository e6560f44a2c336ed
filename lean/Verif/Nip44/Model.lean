import Verif.Config.Model

/-!
# Model of NIP-44 encryption (src/nip44.c)

Key agreement, key derivation, ChaCha20, HMAC and base64 are parameters.  Lengths are `Nat` (all lengths
that get past the size checks are far below 2^32).  Memory allocation succeeds.
-/

namespace Nostr.Nip44
open Nostr

/-- nip44.c:44-50: `next_power` doubles from `np` while it is at most `len`; `none` is the `return 0`. The
fuel 33 is enough for 32-bit values. -/
def nextPower (len : Nat) : Nat → Nat → Option Nat
  | 0, _ => none
  | f + 1, np => if np ≤ len then (if np > 2 ^ 31 - 1 then none else nextPower len f (np * 2)) else some np

/-- nip44.c:36-60 `calc_padded_len`. -/
def paddedLen (len : Nat) : Nat :=
  if len ≤ 32 then 32
  else match nextPower len 33 1 with
    | none => 0
    | some np2 =>
        let np := np2 / 2
        let chunk := if np ≤ 256 then 32 else np / 8
        chunk * ((len - 1) / chunk + 1)

/-- nip44.c:68-70: the configured limits, or 1 and 65535 without a configuration. -/
def minSize (cfg : Option Config.Config) : Nat := cfg.elim 1 (·.nip44Min)
/-- nip44.c:70, 106. -/
def maxSize (cfg : Option Config.Config) : Nat := cfg.elim 65535 (·.nip44Max)

/-- nip44.c:62-90 `pad_plaintext`; `none` is failure. If the buffer were smaller than the text the copy
would overflow. -/
def pad (cfg : Option Config.Config) (m : Bytes) : Res Bytes :=
  if m.length < minSize cfg ∨ m.length > maxSize cfg then .err .memory
  else if m.length > paddedLen m.length then .ub
  else .ok (UInt8.ofNat (m.length / 256 % 256) :: UInt8.ofNat (m.length % 256) ::
    (m ++ List.replicate (paddedLen m.length - m.length) 0))

/-- nip44.c:92-128 `unpad_plaintext`. -/
def unpad (cfg : Option Config.Config) (p : Bytes) : Res Bytes :=
  match p with
  | b0 :: b1 :: rest =>
      let n := b0.toNat * 256 + b1.toNat
      if n = 0 ∨ n > maxSize cfg then .err .invalidParam
      else if p.length ≠ 2 + paddedLen n then .err .invalidParam
      else if n > rest.length then .ub
      else .ok (rest.take n)
  | _ => .err .invalidParam

/-- What noscrypt provides: conversation key of a secret and a public key, the MAC key for a nonce, the
stream cipher for a nonce, and HMAC. -/
structure Nc where
  conv : Bytes → Bytes → Option Bytes
  macKey : Bytes → Bytes → Bytes
  crypt : Bytes → Bytes → Bytes → Bytes
  mac : Bytes → Bytes → Bytes

/-- The base64 codec of the platform (mbedTLS or OpenSSL). -/
structure B64 where
  enc : Bytes → Bytes
  dec : Bytes → Option Bytes

/-- nip44.c:248-361 `nostr_nip44_encrypt`; `nonce = none` is a failing random generator. -/
def encrypt (N : Nc) (B : B64) (cfg : Option Config.Config) (nonce : Option Bytes) (sk pk m : Bytes) :
    Res Bytes :=
  match nonce with
  | none => .err .memory
  | some nonce =>
      pad cfg m >>= fun padded =>
      match N.conv sk pk with
      | none => .err .invalidSignature
      | some ck =>
          let ct := N.crypt ck nonce padded
          .ok (B.enc (2 :: (nonce ++ ct ++ N.mac (N.macKey ck nonce) (nonce ++ ct))))

/-- nip44.c:399-484: decryption of the decoded payload. -/
def decryptPayload (N : Nc) (cfg : Option Config.Config) (sk pk p : Bytes) : Res Bytes :=
  if p.length < 97 ∨ p.length > 65600 then .err .invalidParam
  else if p.head? ≠ some 2 then .err .notSupported
  else
    let nonce := (p.drop 1).take 32
    let ct := (p.drop 33).take (p.length - 65)
    let mac := p.drop (p.length - 32)
    match N.conv sk pk with
    | none => .err .invalidSignature
    | some ck =>
        if mac ≠ N.mac (N.macKey ck nonce) (nonce ++ ct) then .err .invalidSignature
        else unpad cfg (N.crypt ck nonce ct)

/-- nip44.c:363-485 `nostr_nip44_decrypt`. -/
def decrypt (N : Nc) (B : B64) (cfg : Option Config.Config) (sk pk text : Bytes) : Res Bytes :=
  if text.head? = some 0x23 then .err .notSupported
  else match B.dec text with
    | none => .err .invalidParam
    | some p => decryptPayload N cfg sk pk p

end Nostr.Nip44
