import Verif.Wipe.Basic
import Verif.Keys.Model
import Verif.Event.Model
import Verif.Nip26.Model

/-!
# What signing and key handling leave in memory (src/event.c, src/nip26.c, src/key.c)

Objects that hold nothing but a public key (`secp256k1_pubkey`, `secp256k1_xonly_pubkey`) are left out. A random
generator that fails has written nothing, unless a definition says so.
-/

namespace Nostr.Wipe.Keys
open Nostr Nostr.Event Nostr.Wipe

/-! ## Signing with noscrypt -/

/-- event.c:606-607, 625; nip26.c:208-209, 218: the local buffers. -/
structure NcFrame where
  secret : Bytes
  pub : Bytes
  random : Bytes

def NcFrame.dead (f : NcFrame) : List Bytes := [f.secret, f.pub, f.random]

/-- event.c:593-637 `nostr_event_sign` with noscrypt (after initialisation): status and event. `f` is what the local
buffers held before. -/
def signNc (C : Crypto) (b : Build) (f : NcFrame) (rand : Option Bytes) (sk : Bytes) (e : Event.Event) : Run (Res Unit × Event.Event) :=
  let f := { f with secret := over 0 sk f.secret }
  match C.pubOf sk with
  | none =>
      let f := { f with secret := wipe 32 f.secret }
      ⟨(.err .invalidKey, e), f.dead⟩
  | some pk =>
      let f := { f with pub := over 0 pk f.pub }
      let e := { e with pubkey := f.pub }
      match computeId C b e with
      | .ub => ⟨(.ub, e), f.dead⟩
      | .err x =>
          let f := { f with secret := wipe 32 f.secret }
          ⟨(.err x, e), f.dead⟩
      | .ok e =>
          match rand with
          | none =>
              let f := { f with secret := wipe 32 f.secret }
              ⟨(.err .memory, e), f.dead⟩
          | some r =>
              let f := { f with random := over 0 r f.random }
              match C.sign (f.secret.take 32) e.id (f.random.take 32) with
              | none =>
                  let f := { f with secret := wipe 32 f.secret }
                  let f := { f with random := wipe 32 f.random }
                  ⟨(.err .invalidSignature, e), f.dead⟩
              | some s =>
                  let f := { f with secret := wipe 32 f.secret }
                  let f := { f with random := wipe 32 f.random }
                  ⟨(.ok (), { e with sig := s }), f.dead⟩

/-- nip26.c:208-232: signing a delegation with noscrypt; `h` is the hash. The rest of the function uses no secret. -/
def delegNc (C : Crypto) (f : NcFrame) (rand : Option Bytes) (sk h : Bytes) : Run (Res (Bytes × Bytes)) :=
  let f := { f with secret := over 0 sk f.secret }
  match C.pubOf sk with
  | none =>
      let f := { f with secret := wipe 32 f.secret }
      ⟨.err .invalidKey, f.dead⟩
  | some pk =>
      let f := { f with pub := over 0 pk f.pub }
      match rand with
      | none =>
          let f := { f with secret := wipe 32 f.secret }
          ⟨.err .memory, f.dead⟩
      | some r =>
          let f := { f with random := over 0 r f.random }
          match C.sign (f.secret.take 32) h (f.random.take 32) with
          | none =>
              let f := { f with secret := wipe 32 f.secret }
              ⟨.err .invalidSignature, f.dead⟩
          | some s =>
              let f := { f with secret := wipe 32 f.secret }
              let f := { f with random := wipe 32 f.random }
              ⟨.ok (f.pub, s), f.dead⟩

/-! ## Signing with secp256k1 -/

/-- event.c:647, 653; nip26.c:235, 250: the local buffers; `pair` is a `secp256k1_keypair` of 96 bytes. -/
structure SecpFrame where
  pair : Bytes
  random : Bytes

def SecpFrame.dead (f : SecpFrame) : List Bytes := [f.pair, f.random]

/-- event.c:681-686: the end of the function. -/
def secpEnd (f : SecpFrame) (r : Res Unit) (e : Event.Event) : Run (Res Unit × Event.Event) :=
  let f := { f with random := wipe 32 f.random }
  let f := { f with pair := wipe 96 f.pair }
  ⟨(r, e), f.dead⟩

/-- event.c:639-686 `nostr_event_sign` with secp256k1 (after initialisation). `pair` is `secp256k1_keypair_create`; the
two calls that take the public key out of the pair are one step. -/
def signSecp (C : Crypto) (pair : Bytes → Option Bytes) (b : Build) (f : SecpFrame) (rand : Option Bytes) (sk : Bytes) (e : Event.Event) :
    Run (Res Unit × Event.Event) :=
  match pair sk with
  | none => ⟨(.err .invalidKey, e), f.dead⟩
  | some kp =>
      let f := { f with pair := over 0 kp f.pair }
      let f := { f with random := over 0 (List.replicate 32 0) f.random }
      match C.pubOf sk with
      | none => secpEnd f (.err .invalidKey) e
      | some pk =>
          let e := { e with pubkey := pk }
          match computeId C b e with
          | .ub => ⟨(.ub, e), f.dead⟩
          | .err x => secpEnd f (.err x) e
          | .ok e =>
              match rand with
              | none => secpEnd f (.err .memory) e
              | some r =>
                  let f := { f with random := over 0 r f.random }
                  match C.sign sk e.id (f.random.take 32) with
                  | none => secpEnd f (.err .invalidSignature) e
                  | some s => secpEnd f (.ok ()) { e with sig := s }

/-- nip26.c:234-264: signing a delegation with secp256k1. -/
def delegSecp (C : Crypto) (pair : Bytes → Option Bytes) (f : SecpFrame) (rand : Option Bytes) (sk h : Bytes) : Run (Res (Bytes × Bytes)) :=
  match pair sk with
  | none => ⟨.err .invalidKey, f.dead⟩
  | some kp =>
      let f := { f with pair := over 0 kp f.pair }
      match C.pubOf sk with
      | none =>
          let f := { f with pair := wipe 96 f.pair }
          ⟨.err .invalidKey, f.dead⟩
      | some pk =>
          match rand with
          | none =>
              let f := { f with pair := wipe 96 f.pair }
              ⟨.err .memory, f.dead⟩
          | some r =>
              let f := { f with random := over 0 r f.random }
              match C.sign sk h (f.random.take 32) with
              | none =>
                  let f := { f with pair := wipe 96 f.pair }
                  let f := { f with random := wipe 32 f.random }
                  ⟨.err .invalidSignature, f.dead⟩
              | some s =>
                  let f := { f with pair := wipe 96 f.pair }
                  let f := { f with random := wipe 32 f.random }
                  ⟨.ok (pk, s), f.dead⟩

/-! ## Keys -/

open Nostr.Keys (Curve Draw Pair attempts)

/-- key.c:299-300, 457-459, 551-552, 634-636: the local buffers; `extra` is `shared_point` or `derived_public`. -/
structure KeyFrame where
  secret : Bytes
  pub : Bytes
  extra : Bytes

def KeyFrame.dead (f : KeyFrame) : List Bytes := [f.secret, f.pub, f.extra]

/-- key.c:296-329 `nostr_key_generate` with noscrypt: status, the caller's private and public key. A generator that fails
may have written; what it wrote is in the buffer. When the call fails, the caller's private key counts as left. -/
def generateNc (C : Curve) (rng : Nat → Draw) (f : KeyFrame) (priv pub : Bytes) : Run (Res Unit × Bytes) :=
  match attempts C rng 128 0 f.secret with
  | .broken b =>
      let f := { f with secret := b }
      ⟨(.err .memory, pub), f.dead ++ [priv]⟩
  | .exhausted b =>
      let f := { f with secret := b }
      let f := { f with secret := wipe 32 f.secret }
      ⟨(.err .invalidKey, pub), f.dead ++ [priv]⟩
  | .key k =>
      let f := { f with secret := k }
      match C.pub k with
      | none =>
          let f := { f with secret := wipe 32 f.secret }
          ⟨(.err .invalidKey, pub), f.dead ++ [priv]⟩
      | some p =>
          let f := { f with pub := over 0 p f.pub }
          let f := { f with secret := wipe 32 f.secret }
          ⟨(.ok (), p), f.dead⟩

/-- key.c:331-373 `nostr_key_generate` with secp256k1, which works in the caller's private key. -/
def generateSecp (C : Curve) (rng : Nat → Draw) (priv pub : Bytes) : Run (Res Unit × Bytes) :=
  match attempts C rng 128 0 priv with
  | .broken b => ⟨(.err .memory, pub), [b]⟩
  | .exhausted b => ⟨(.err .invalidKey, pub), [wipe 32 b]⟩
  | .key k =>
      match C.pub k with
      | none => ⟨(.err .invalidKey, pub), [wipe 32 k]⟩
      | some p => ⟨(.ok (), p), []⟩

/-- key.c:456-470 `nostr_key_ecdh` with noscrypt; `shared` is `NCGetSharedSecret`. -/
def ecdhNc (shared : Bytes → Bytes → Option Bytes) (f : KeyFrame) (sk pk : Bytes) : Run (Res Bytes) :=
  let f := { f with secret := over 0 sk f.secret }
  let f := { f with pub := over 0 pk f.pub }
  match shared sk pk with
  | none =>
      let f := { f with secret := wipe 32 f.secret }
      ⟨.err .invalidKey, f.dead⟩
  | some x =>
      let f := { f with extra := over 0 x f.extra }
      let out := f.extra.take 32
      let f := { f with secret := wipe 32 f.secret }
      let f := { f with extra := wipe 32 f.extra }
      ⟨.ok out, f.dead⟩

/-- key.c:547-568, 599-600 `nostr_keypair_from_private_key` with noscrypt (after initialisation). When the call fails, the
private key in the keypair counts as left. -/
def importNc (C : Curve) (f : KeyFrame) (k : Pair) (sk : Bytes) : Run (Res Unit × Pair) :=
  let k := { k with priv := over 0 sk k.priv }
  let f := { f with secret := over 0 sk f.secret }
  if C.valid sk then
    match C.pub sk with
    | none =>
        let f := { f with secret := wipe 32 f.secret }
        let k := { k with priv := wipe 32 k.priv }
        ⟨(.err .invalidKey, k), f.dead ++ [k.priv]⟩
    | some p =>
        let f := { f with pub := over 0 p f.pub }
        let k := { k with pub := over 0 p k.pub }
        let f := { f with secret := wipe 32 f.secret }
        ⟨(.ok (), { k with ready := true }), f.dead⟩
  else
    let f := { f with secret := wipe 32 f.secret }
    let k := { k with priv := wipe 32 k.priv }
    ⟨(.err .invalidKey, k), f.dead ++ [k.priv]⟩

/-- key.c:570-600 `nostr_keypair_from_private_key` with secp256k1. -/
def importSecp (C : Curve) (k : Pair) (sk : Bytes) : Run (Res Unit × Pair) :=
  let k := { k with priv := over 0 sk k.priv }
  if C.valid sk then
    match C.pub sk with
    | none =>
        let k := { k with priv := wipe 32 k.priv }
        ⟨(.err .invalidKey, k), [k.priv]⟩
    | some p => ⟨(.ok (), { k with pub := over 0 p k.pub, ready := true }), []⟩
  else
    let k := { k with priv := wipe 32 k.priv }
    ⟨(.err .invalidKey, k), [k.priv]⟩

/-- key.c:520-532 `nostr_keypair_from_private_hex`, with either backend's import. When reading the text fails, the private
key in the keypair counts as left. -/
def importHex (lax0x : Bool) (import_ : Pair → Bytes → Run (Res Unit × Pair)) (k : Pair) (hex : Bytes) : Run (Res Unit × Pair) :=
  match Nostr.Keys.privFromHex lax0x hex k.priv with
  | (.ok (), priv) => import_ { k with priv := priv } priv
  | (r, priv) => ⟨(r, { k with priv := priv }), [priv]⟩

/-- key.c:634-656 `nostr_keypair_validate` with noscrypt, for an initialised keypair. -/
def validateNc (C : Curve) (f : KeyFrame) (k : Pair) : Run (Res Unit) :=
  let f := { f with secret := over 0 k.priv f.secret }
  let f := { f with pub := over 0 k.pub f.pub }
  if C.valid k.priv then
    match C.pub k.priv with
    | none =>
        let f := { f with secret := wipe 32 f.secret }
        ⟨.err .invalidKey, f.dead⟩
    | some p =>
        let f := { f with extra := over 0 p f.extra }
        let same := Hex.ctMemcmp f.pub f.extra
        let f := { f with secret := wipe 32 f.secret }
        ⟨if same = 0 then .ok () else .err .invalidKey, f.dead⟩
  else
    let f := { f with secret := wipe 32 f.secret }
    ⟨.err .invalidKey, f.dead⟩

/-- key.c:704-713 `nostr_keypair_destroy`. -/
def destroyPair (k : Pair) : Pair := ⟨wipe 32 k.priv, wipe 32 k.pub, false⟩

end Nostr.Wipe.Keys
