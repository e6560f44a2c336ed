import Verif.Wipe.Basic
import Verif.Nip49.Model

/-!
# What the encryption of private keys with a password leaves in memory (src/nip49.c)

The buffers `data5bit` and `checksum` are left out: they hold the values of the characters of the text that is written or
read.
-/

namespace Nostr.Wipe.Ncrypt
open Nostr Nostr.Bech32 Nostr.Wipe

/-! ## The cipher -/

/-- nip49.c:40-71: the sixteen words of the state after the rounds, as they lie in memory (little endian). -/
def stateOf (key nonce : Bytes) : Bytes :=
  (Nip49.rounds 10
    ([0x61707865, 0x3320646e, 0x79622d32, 0x6b206574] ++
      (List.range 8).map (fun i => Nip49.load32 (key.drop (i * 4))) ++
      (List.range 4).map (fun i => Nip49.load32 (nonce.drop (i * 4))))).flatMap Nip49.store32

/-- nip49.c:37-84 `hchacha20`: the subkey, and what is left of `state` (64 bytes). -/
def hchacha20 (state key nonce : Bytes) : Run Bytes :=
  let state := over 0 (stateOf key nonce) state
  let state := wipe 64 state
  ⟨Nip49.hchacha20 key nonce, [state]⟩

/-- nip49.c:40, 93-94, 146-147: the local buffers. -/
structure XFrame where
  state : Bytes
  subkey : Bytes
  nonce12 : Bytes

def XFrame.dead (f : XFrame) : List Bytes := [f.subkey, f.nonce12, f.state]

/-- nip49.c:86-136 `xchacha20_poly1305_encrypt`: ciphertext and tag. -/
def xEncrypt (L : Nip49.Lib) (f : XFrame) (key nonce24 aad pt : Bytes) : Run (Option (Bytes × Bytes)) :=
  let h := hchacha20 f.state key nonce24
  let f := { f with subkey := over 0 h.view f.subkey }
  let f := { f with nonce12 := over 0 (List.replicate 4 0) f.nonce12 }
  let f := { f with nonce12 := over 4 ((nonce24.drop 16).take 8) f.nonce12 }
  let r := L.sl f.subkey f.nonce12 aad pt
  let f := { f with subkey := wipe 32 f.subkey }
  let f := { f with nonce12 := wipe 12 f.nonce12 }
  ⟨r, [f.subkey, f.nonce12] ++ h.left⟩

/-- nip49.c:138-189 `xchacha20_poly1305_decrypt`. -/
def xDecrypt (L : Nip49.Lib) (f : XFrame) (key nonce24 aad ct tag : Bytes) : Run (Option Bytes) :=
  let h := hchacha20 f.state key nonce24
  let f := { f with subkey := over 0 h.view f.subkey }
  let f := { f with nonce12 := over 0 (List.replicate 4 0) f.nonce12 }
  let f := { f with nonce12 := over 4 ((nonce24.drop 16).take 8) f.nonce12 }
  let r := L.open_ f.subkey f.nonce12 aad ct tag
  let f := { f with subkey := wipe 32 f.subkey }
  let f := { f with nonce12 := wipe 12 f.nonce12 }
  ⟨r, [f.subkey, f.nonce12] ++ h.left⟩

/-! ## Encryption -/

/-- nip49.c:253-258: the local buffers, and those of the cipher. -/
structure EncFrame where
  salt : Bytes
  nonce : Bytes
  key : Bytes
  ct : Bytes
  mac : Bytes
  payload : Bytes
  x : XFrame

def EncFrame.dead (f : EncFrame) : List Bytes := [f.salt, f.nonce, f.key, f.ct, f.mac, f.payload] ++ f.x.dead

/-- nip49.c:314-321: the end of the function; `x` is what the cipher left. -/
def encEnd (f : EncFrame) (x : List Bytes) (r : Res Bytes) : Run (Res Bytes) :=
  let f := { f with salt := wipe 16 f.salt }
  let f := { f with nonce := wipe 24 f.nonce }
  let f := { f with key := wipe 32 f.key }
  let f := { f with ct := wipe 32 f.ct }
  let f := { f with mac := wipe 16 f.mac }
  let f := { f with payload := wipe 91 f.payload }
  ⟨r, [f.salt, f.nonce, f.key, f.ct, f.mac, f.payload] ++ x⟩

/-- nip49.c:247-322 `nostr_ncryptsec_encrypt`. `salt` and `nonce` are the answers of the random generator. `scr` is what a
cipher that fails has written to the two buffers of its result. -/
def encrypt (L : Nip49.Lib) (f : EncFrame) (salt nonce : Option Bytes) (scr : Bytes × Bytes) (privkey password : Bytes) (logN : UInt8)
    (size : Nat) : Run (Res Bytes) :=
  if password.length = 0 ∨ logN < 16 ∨ logN > 22 ∨ size < 163 then ⟨.err .invalidParam, f.dead⟩
  else match salt with
    | none => encEnd f f.x.dead (.err .memory)
    | some salt =>
      let f := { f with salt := over 0 salt f.salt }
      match nonce with
      | none => encEnd f f.x.dead (.err .memory)
      | some nonce =>
        let f := { f with nonce := over 0 nonce f.nonce }
        match Nip49.deriveKey L password f.salt logN with
        | none => encEnd f f.x.dead (.err .encoding)
        | some key =>
          let f := { f with key := over 0 key f.key }
          let x := xEncrypt L f.x f.key f.nonce [2] privkey
          match x.view with
          | none =>
            let f := { f with ct := over 0 scr.1 f.ct }
            let f := { f with mac := over 0 scr.2 f.mac }
            encEnd f x.left (.err .encoding)
          | some (ct, mac) =>
            let f := { f with ct := over 0 ct f.ct }
            let f := { f with mac := over 0 mac f.mac }
            let f := { f with payload := over 0 [2, logN] f.payload }
            let f := { f with payload := over 2 f.salt f.payload }
            let f := { f with payload := over 18 f.nonce f.payload }
            let f := { f with payload := over 42 [2] f.payload }
            let f := { f with payload := over 43 f.ct f.payload }
            let f := { f with payload := over 75 f.mac f.payload }
            let data := convertBits f.payload 146 8 5 true
            if data = [] then encEnd f x.left (.err .encoding)
            else match createChecksum c!"ncryptsec" data with
              | none => encEnd f x.left (.err .encoding)
              | some ck => encEnd f x.left (.ok (c!"ncryptsec1" ++ data.map charsetAt ++ ck.map charsetAt))

/-! ## Decryption -/

/-- nip49.c:328-329: the local buffers, and those of the cipher. -/
structure DecFrame where
  payload : Bytes
  key : Bytes
  x : XFrame

def DecFrame.dead (f : DecFrame) : List Bytes := [f.payload, f.key] ++ f.x.dead

/-- nip49.c:377-380: the end of the function. -/
def decEnd (f : DecFrame) (x : List Bytes) (r : Res Unit) (buf : Bytes) : Run (Res Unit × Bytes) :=
  let f := { f with key := wipe 32 f.key }
  let f := { f with payload := wipe 91 f.payload }
  ⟨(r, buf), [f.payload, f.key] ++ x⟩

/-- nip49.c:324-381 `nostr_ncryptsec_decrypt`: status and the key buffer of the caller, which held `buf`. `part` is what
`payload` holds after a text that is not decoded: what it held before, or some of the decoded text on top of it. `scr` is
what the cipher has written to the key buffer when it fails. -/
def decrypt (L : Nip49.Lib) (f : DecFrame) (part scr buf s password : Bytes) : Run (Res Unit × Bytes) :=
  if password.length = 0 then ⟨(.err .invalidParam, buf), f.dead⟩
  else match Nip49.decode s with
    | .ub => ⟨(.ub, buf), f.dead⟩
    | .err e =>
        let f := { f with payload := part }
        ⟨(.err e, buf), f.dead⟩
    | .ok p =>
        let f := { f with payload := over 0 p f.payload }
        match Nip49.checkPayload f.payload with
        | .ub => ⟨(.ub, buf), f.dead⟩
        | .err e => decEnd f f.x.dead (.err e) buf
        | .ok _ =>
          match Nip49.deriveKey L password ((f.payload.drop 2).take 16) (f.payload.getD 1 0) with
          | none => decEnd f f.x.dead (.err .encoding) buf
          | some key =>
            let f := { f with key := over 0 key f.key }
            let x := xDecrypt L f.x f.key ((f.payload.drop 18).take 24) [f.payload.getD 42 0] ((f.payload.drop 43).take 32)
              ((f.payload.drop 75).take 16)
            match x.view with
            | none => decEnd f x.left (.err .invalidSignature) (wipe 32 (over 0 scr buf))
            | some k => decEnd f x.left (.ok ()) (over 0 k buf)

/-- nip49.c:383-410 `nostr_ncryptsec_validate`; `b` is `payload`. -/
def validate (b part s : Bytes) : Run (Res Unit) :=
  match Nip49.decode s with
  | .ub => ⟨.ub, [b]⟩
  | .err e => ⟨.err e, [part]⟩
  | .ok p =>
      let b := over 0 p b
      let r := Nip49.checkPayload b
      let b := wipe 91 b
      ⟨r, [b]⟩

end Nostr.Wipe.Ncrypt
