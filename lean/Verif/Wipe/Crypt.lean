import Verif.Wipe.Basic
import Verif.Nip44.Model
import Verif.Nip04.Model

/-!
# What message encryption leaves in memory (src/nip44.c, the build with noscrypt and OpenSSL)

`freed` lists the blocks of memory that were released, each with what it held at that moment, in the order of release.
`Faults` says which allocations and library calls fail; the value models (`Nostr.Nip44`, `Nostr.Nip04`) are the case without
faults. A new block holds `junk`. Buffers for base64 inside OpenSSL and the cipher context of OpenSSL are not modelled. The
buffer `nc_public` holds the public key of the other party and is left out.
-/

namespace Nostr.Wipe.Crypt
open Nostr Nostr.Wipe

/-- A call: its outcome, what its local buffers hold at the return, and the blocks it has released. -/
structure Call (V : Type) where
  view : V
  locals : List Bytes
  freed : List Bytes

/-! ## NIP-44 -/

/-- nip44.c:77, 296, 302-305, 319, 326, 336, 350: what may fail in `nostr_nip44_encrypt`, apart from the random generator and
the key agreement. -/
structure EncFaults where
  padMem : Bool := false
  encMem : Bool := false
  args : Bool := false
  macMem : Bool := false
  mac : Bool := false
  payMem : Bool := false
  b64 : Bool := false

/-- nip44.c:252-260: the local buffers of `nostr_nip44_encrypt`. -/
structure EncFrame where
  secret : Bytes
  hmac : Bytes
  nonce : Bytes
  mac : Bytes

def EncFrame.dead (f : EncFrame) : List Bytes := [f.secret, f.hmac, f.nonce, f.mac]

/-- nip44.c:354-360: the end of the function. `freed` are the blocks that were released before, `held` those that are released
here. -/
def encEnd (f : EncFrame) (freed held : List Bytes) (r : Res Bytes) : Call (Res Bytes) :=
  let freed := freed ++ held
  let f := { f with secret := wipe 32 f.secret }
  let f := { f with hmac := wipe 32 f.hmac }
  ⟨r, f.dead, freed⟩

/-- nip44.c:318-352: from the ciphertext to the text. -/
def encFinish (N : Nip44.Nc) (B : Nip44.B64) (x : EncFaults) (f : EncFrame) (freed : List Bytes) (ct : Bytes) : Call (Res Bytes) :=
  if x.macMem then encEnd f freed [ct] (.err .memory)
  else
    let input := f.nonce ++ ct
    let freed := freed ++ [input]
    if x.mac then encEnd f freed [ct] (.err .invalidSignature)
    else
      let f := { f with mac := over 0 (N.mac f.hmac input) f.mac }
      if x.payMem then encEnd f freed [ct] (.err .memory)
      else
        let payload := 2 :: (f.nonce ++ ct ++ f.mac)
        let freed := freed ++ [ct]
        if x.b64 then encEnd f freed [payload] (.err .memory)
        else encEnd f freed [payload] (.ok (B.enc payload))

/-- nip44.c:248-361 `nostr_nip44_encrypt` (after initialisation). -/
def encrypt44 (N : Nip44.Nc) (B : Nip44.B64) (cfg : Option Config.Config) (x : EncFaults) (junk : Nat → Bytes) (f : EncFrame) (nonce : Option Bytes)
    (sk pk m : Bytes) : Call (Res Bytes) :=
  let f := { f with secret := over 0 sk f.secret }
  match nonce with
  | none => encEnd f [] [] (.err .memory)
  | some nonce =>
      let f := { f with nonce := over 0 nonce f.nonce }
      match Nip44.pad cfg m with
      | .ub => ⟨.ub, f.dead, []⟩
      | .err e => encEnd f [] [] (.err e)
      | .ok padded =>
          if x.padMem then encEnd f [] [] (.err .memory)
          else if x.encMem then encEnd f [] [padded] (.err .memory)
          else
            let block := junk padded.length
            if x.args then encEnd f [] [padded, block] (.err .invalidParam)
            else match N.conv (f.secret.take 32) pk with
              | none => encEnd f [padded] [block] (.err .invalidSignature)
              | some ck =>
                  let f := { f with hmac := over 0 (N.macKey ck f.nonce) f.hmac }
                  encFinish N B x f [padded] (N.crypt ck f.nonce padded)

/-- nip44.c:421, 443, 451-453, 117, 469: what may fail in `nostr_nip44_decrypt`, apart from the checks of the text. -/
structure DecFaults where
  macMem : Bool := false
  decMem : Bool := false
  args : Bool := false
  unpadMem : Bool := false
  outMem : Bool := false

/-- nip44.c:479-484: the end of the function. -/
def decEnd (secret : Bytes) (freed held : List Bytes) (r : Res Bytes) : Call (Res Bytes) :=
  let freed := freed ++ held
  let secret := wipe 32 secret
  ⟨r, [secret], freed⟩

/-- nip44.c:399-485: from the decoded text on; `secret` is `nc_secret`. `NCVerifyMac` and `NCDecrypt` derive the conversation
key in the same way. -/
def open44 (N : Nip44.Nc) (cfg : Option Config.Config) (x : DecFaults) (secret sk pk p : Bytes) : Call (Res Bytes) :=
  if p.length < 97 ∨ p.length > 65600 then ⟨.err .invalidParam, [secret], [p]⟩
  else if p.head? ≠ some 2 then ⟨.err .notSupported, [secret], [p]⟩
  else
    let nonce := (p.drop 1).take 32
    let ct := (p.drop 33).take (p.length - 65)
    let mac := p.drop (p.length - 32)
    let secret := over 0 sk secret
    if x.macMem then decEnd secret [] [p] (.err .memory)
    else
      let input := nonce ++ ct
      match N.conv (secret.take 32) pk with
      | none =>
          let freed := [wipe input.length input]
          decEnd secret freed [p] (.err .invalidSignature)
      | some ck =>
          let freed := [wipe input.length input]
          if mac ≠ N.mac (N.macKey ck nonce) input then decEnd secret freed [p] (.err .invalidSignature)
          else if x.decMem then decEnd secret freed [p] (.err .memory)
          else if x.args then decEnd secret freed [p, List.replicate ct.length 0] (.err .invalidParam)
          else
            let decrypted := N.crypt ck nonce ct
            match Nip44.unpad cfg decrypted with
            | .ub => ⟨.ub, [secret], freed⟩
            | .err e => decEnd secret freed [p, decrypted] (.err e)
            | .ok m =>
                if x.unpadMem then decEnd secret freed [p, decrypted] (.err .invalidParam)
                else if x.outMem then decEnd secret freed [p, decrypted, m] (.err .memory)
                else decEnd secret freed [p, decrypted, m] (.ok m)

/-- nip44.c:363-485 `nostr_nip44_decrypt` (after initialisation). `bad` is what the block of a failing `base64_decode` held. -/
def decrypt44 (N : Nip44.Nc) (B : Nip44.B64) (cfg : Option Config.Config) (x : DecFaults) (bad : Bytes) (secret sk pk text : Bytes) : Call (Res Bytes) :=
  if text.head? = some 0x23 then ⟨.err .notSupported, [secret], []⟩
  else match B.dec text with
    | none => ⟨.err .invalidParam, [secret], [bad]⟩
    | some p => open44 N cfg x secret sk pk p

/-! ## NIP-04 -/

/-- nip44.c:528, 534, 540, 546-551, 558, 563, 569: what may fail in `nostr_nip04_encrypt`. -/
structure Enc4Faults where
  ctx : Bool := false
  init : Bool := false
  encMem : Bool := false
  run : Bool := false
  content : Bool := false
  ivText : Bool := false
  outMem : Bool := false

/-- nip44.c:577-584: the end of the function; the local buffers are `shared_secret` and `iv`. -/
def enc4End (secret iv : Bytes) (held : List Bytes) (r : Res Bytes) : Call (Res Bytes) :=
  let secret := wipe 32 secret
  ⟨r, [secret, iv], held⟩

/-- nip44.c:502-585 `nostr_nip04_encrypt`. `shared` is the answer of `nostr_key_ecdh` (see C160), which writes nothing when it
fails. `part` is what the block of the result holds when the cipher fails. Of a text longer than an `int` can say, only a part is encrypted
(see `Nip04.encrypt`); the rest of the block, never written, is left out. -/
def encrypt04 (C : Nip04.Cipher) (B : Nip04.Codec) (x : Enc4Faults) (part secret iv : Bytes) (shared rand : Option Bytes) (m : Bytes) :
    Call (Res Bytes) :=
  match shared with
  | none => ⟨.err .invalidKey, [secret, iv], []⟩
  | some key =>
      let secret := over 0 key secret
      match rand with
      | none => enc4End secret iv [] (.err .memory)
      | some r =>
          let iv := over 0 r iv
          if x.ctx then enc4End secret iv [] (.err .memory)
          else if x.init then enc4End secret iv [] (.err .invalidParam)
          else if m.length % 2 ^ 32 ≥ Nip04.limit then ⟨.ub, [secret, iv], []⟩
          else if x.encMem then enc4End secret iv [] (.err .memory)
          else if x.run then enc4End secret iv [part] (.err .invalidParam)
          else
            let ct := Nip04.cbc C (secret.take 32) iv (m.take (m.length % 2 ^ 32))
            if x.content then enc4End secret iv [ct] (.err .memory)
            else
              let content := B.enc ct
              if x.ivText then enc4End secret iv [ct, content] (.err .memory)
              else
                let ivText := B.enc iv
                if x.outMem then enc4End secret iv [ct, content, ivText] (.err .memory)
                else enc4End secret iv [ct, content, ivText] (.ok (content ++ c!"?iv=" ++ ivText))

/-- nip44.c:606, 636, 642, 647, 665: what may fail in `nostr_nip04_decrypt`, apart from the checks of the text. -/
structure Dec4Faults where
  copyMem : Bool := false
  ctx : Bool := false
  init : Bool := false
  decMem : Bool := false
  outMem : Bool := false

/-- nip44.c:674-685: the end of the function; `block` is `decrypted` with the length `size` that is wiped. -/
def dec4End (secret : Bytes) (held : List Bytes) (block : Option (Bytes × Nat)) (r : Res Bytes) : Call (Res Bytes) :=
  let secret := wipe 32 secret
  match block with
  | none => ⟨r, [secret], held⟩
  | some (b, size) =>
      let b := wipe size b
      ⟨r, [secret], held ++ [b]⟩

/-- nip44.c:636-672: with the decoded content, from the key on. `copy` and `ivData` are the blocks held, `n` is the number of
bytes of the content (`encrypted_len`), `secret` is `shared_secret`. `block` is what `decrypted` holds when the cipher fails, of
the size that was allocated. When it succeeds it starts with the text and its padding. -/
def open04 (C : Nip04.Cipher) (x : Dec4Faults) (block : Bytes) (secret : Bytes) (held : List Bytes) (content : Option Bytes) (n : Nat) (iv : Bytes) :
    Call (Res Bytes) :=
  if x.ctx then dec4End secret held none (.err .memory)
  else if x.init then dec4End secret held none (.err .invalidParam)
  else if x.decMem then dec4End secret held none (.err .memory)
  else match content with
    | none => dec4End secret held (some (block, (n + 16) % 2 ^ 64)) (.err .invalidParam)
    | some c =>
        match Nip04.uncbc C (secret.take 32) iv c with
        | none => dec4End secret held (some (block, (n + 16) % 2 ^ 64)) (.err .invalidParam)
        | some m =>
            let b := over 0 m block
            if x.outMem then dec4End secret held (some (b, (n + 16) % 2 ^ 64)) (.err .memory)
            else dec4End secret held (some (b, (n + 16) % 2 ^ 64)) (.ok m)

/-- nip44.c:626-686: from the initialisation vector on. `data` is what the block of the content holds; `content` and `n` as
in `open04`; `bad` is what the block of a vector that was not decoded holds. -/
def vector04 (C : Nip04.Cipher) (B : Nip04.Codec) (zero : Bool) (x : Dec4Faults) (block bad secret : Bytes) (shared : Option Bytes)
    (text ivText data : Bytes) (content : Option Bytes) (n : Nat) : Call (Res Bytes) :=
  match Nip04.decode B zero ivText with
  | .released => ⟨.ub, [secret], []⟩
  | .null => dec4End secret [text, data] none (.err .invalidParam)
  | .huge => dec4End secret [text, data, bad] none (.err .invalidParam)
  | .data iv =>
      if iv.length ≠ 16 then dec4End secret [text, data, iv] none (.err .invalidParam)
      else match shared with
        | none => dec4End secret [text, data, iv] none (.err .invalidKey)
        | some key =>
            let secret := over 0 key secret
            open04 C x block secret [text, data, iv] content n iv

/-- nip44.c:587-686 `nostr_nip04_decrypt`. A content of length `SIZE_MAX` (see `Nip04.decode`) has a block of `SIZE_MAX + 16`
bytes modulo 2^64. `bad1` and `bad2` are the contents of the blocks that hold no decoded data. The copy of the text is
released with a NUL in the place of the question mark; this is not modelled. -/
def decrypt04 (C : Nip04.Cipher) (B : Nip04.Codec) (zero : Bool) (x : Dec4Faults) (block bad1 bad2 secret : Bytes) (shared : Option Bytes)
    (text : Bytes) : Call (Res Bytes) :=
  if x.copyMem then ⟨.err .memory, [secret], []⟩
  else match Nip04.cut text with
    | none => ⟨.err .invalidParam, [secret], [text]⟩
    | some (content, ivText) =>
        match Nip04.decode B zero content with
        | .released => ⟨.ub, [secret], []⟩
        | .null => dec4End secret [text] none (.err .invalidParam)
        | .huge => vector04 C B zero x block bad2 secret shared text ivText bad1 none (2 ^ 64 - 1)
        | .data c => vector04 C B zero x block bad2 secret shared text ivText c (some c) c.length

end Nostr.Wipe.Crypt
