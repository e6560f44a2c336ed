import Verif.Hex.Model

/-!
# Model of random bytes, key generation, shared secrets and keypairs (src/key.c)

Elliptic-curve arithmetic and the random generator are parameters.
-/

namespace Nostr.Keys
open Nostr

/-- key.c:13-20: the library the code is compiled against (noscrypt wins when both are there). -/
inductive Build
  | noscrypt | secp
  deriving DecidableEq, Repr

/-- What the library knows of the curve: which secrets are valid, and the x coordinate of the public key
(`none` is a failing derivation). The three calls of the secp256k1 build (create, x-only, serialise) are
one step; they fail in the same way. -/
structure Curve where
  valid : Bytes → Bool
  pub : Bytes → Option Bytes

/-- key.c:125-209 `nostr_random_bytes`: requests of at most `max` bytes (INT_MAX for OpenSSL, 1024 for
mbedTLS) until `len` bytes are there. `draw i n` is the answer to the `i`-th request, of `n` bytes; `none`
is a failure. The lock and the seeding of the mbedTLS build are modelled in `Nostr.Keys.Rng`. The fuel `len` is enough,
every request takes at least one byte. -/
def randomLoop (max : Nat) (draw : Nat → Nat → Option Bytes) : Nat → Nat → Nat → Option Bytes
  | 0, _, len => if len = 0 then some [] else none
  | f + 1, i, len =>
      if len = 0 then some []
      else
        let chunk := if len > max then max else len
        match draw i chunk with
        | none => none
        | some b => (randomLoop max draw f (i + 1) (len - chunk)).map (b ++ ·)

/-- key.c:125-209 `nostr_random_bytes`; `none` is the return value 0. -/
def randomBytes (max : Nat) (draw : Nat → Nat → Option Bytes) (len : Nat) : Option Bytes :=
  randomLoop max draw len 0 len

/-- The answer of the generator to a request for a secret key. A failing call may have written into the
buffer: `left` is what it holds then. -/
inductive Draw
  | filled (b : Bytes)
  | failed (left : Bytes)
  deriving DecidableEq, Repr

/-- How the loop of key.c:302-312 (noscrypt) and 334-344 (secp256k1) ends; with the buffer's content. -/
inductive Found
  | key (b : Bytes)
  | broken (b : Bytes)
  | exhausted (b : Bytes)
  deriving DecidableEq, Repr

/-- key.c:302-312, 334-344: `k` attempts remain, `i` were made, `buf` is the buffer. -/
def attempts (C : Curve) (rng : Nat → Draw) : Nat → Nat → Bytes → Found
  | 0, _, buf => .exhausted buf
  | k + 1, i, _ =>
      match rng i with
      | .failed left => .broken left
      | .filled b => if C.valid b then .key b else attempts C rng k (i + 1) b

/-- A wiped key. -/
def zeros : Bytes := List.replicate 32 0

/-- key.c:283-377 `nostr_key_generate`. `ready` is the result of the initialisation (289-294), `priv` and
`pub` the caller's buffers; returned with the result. -/
def generate (b : Build) (C : Curve) (ready : Res Unit) (rng : Nat → Draw) (priv pub : Bytes) :
    Res Unit × Bytes × Bytes :=
  match ready with
  | .err e => (.err e, priv, pub)
  | .ub => (.ub, priv, pub)
  | .ok () =>
      match b with
      | .noscrypt =>
          match attempts C rng 128 0 [] with
          | .broken _ => (.err .memory, priv, pub)
          | .exhausted _ => (.err .invalidKey, priv, pub)
          | .key k => match C.pub k with
              | none => (.err .invalidKey, priv, pub)
              | some p => (.ok (), k, p)
      | .secp =>
          match attempts C rng 128 0 priv with
          | .broken left => (.err .memory, left, pub)
          | .exhausted _ => (.err .invalidKey, zeros, pub)
          | .key k => match C.pub k with
              | none => (.err .invalidKey, zeros, pub)
              | some p => (.ok (), k, p)

/-- include/nostr.h `nostr_keypair`. -/
structure Pair where
  priv : Bytes
  pub : Bytes
  ready : Bool
  deriving DecidableEq, Repr

/-- key.c:493-503 `nostr_keypair_init`. -/
def initPair : Pair := ⟨zeros, zeros, false⟩

/-- key.c:505-518 `nostr_keypair_generate`. -/
def pairGenerate (b : Build) (C : Curve) (ctx : Res Unit) (rng : Nat → Draw) (k : Pair) : Res Unit × Pair :=
  match generate b C ctx rng k.priv k.pub with
  | (.ok (), priv, pub) => (.ok (), ⟨priv, pub, true⟩)
  | (r, priv, pub) => (r, ⟨priv, pub, k.ready⟩)

/-- key.c:534-601 `nostr_keypair_from_private_key`. `priv` may be the pair's own key (531): the copy is
then the identity. -/
def fromPrivate (C : Curve) (ctx : Res Unit) (k : Pair) (priv : Bytes) : Res Unit × Pair :=
  match ctx with
  | .err e => (.err e, k)
  | .ub => (.ub, k)
  | .ok () =>
      if C.valid priv then
        match C.pub priv with
        | none => (.err .invalidKey, { k with priv := zeros })
        | some p => (.ok (), ⟨priv, p, true⟩)
      else (.err .invalidKey, { k with priv := zeros })

/-- key.c:419-423 writing into `old`: the bytes before the first failure are overwritten. -/
def scanInto (lax0x : Bool) : Nat → Bytes → Bytes → Res Unit × Bytes
  | 0, _, old => (.ok (), old)
  | n + 1, s, old =>
      match Hex.scan2 lax0x s with
      | none => (.err .invalidKey, old)
      | some b =>
          let r := scanInto lax0x n (s.drop 2) old.tail
          (r.1, b :: r.2)

/-- key.c:410-426 `nostr_privkey_from_hex` with the buffer it writes into. -/
def privFromHex (lax0x : Bool) (hex old : Bytes) : Res Unit × Bytes :=
  if hex.length ≠ 64 then (.err .invalidKey, old) else scanInto lax0x 32 hex old

/-- key.c:520-532 `nostr_keypair_from_private_hex`. -/
def fromHex (lax0x : Bool) (C : Curve) (ctx : Res Unit) (k : Pair) (hex : Bytes) : Res Unit × Pair :=
  match privFromHex lax0x hex k.priv with
  | (.ok (), priv) => fromPrivate C ctx { k with priv := priv } priv
  | (r, priv) => (r, { k with priv := priv })

/-- key.c:603-610 `nostr_keypair_export_private_hex`. -/
def exportPrivate (k : Pair) (size : Nat) : Res Bytes :=
  if k.ready then Hex.keyToHex k.priv size else .err .invalidParam

/-- key.c:612-619 `nostr_keypair_export_public_hex`. -/
def exportPublic (k : Pair) (size : Nat) : Res Bytes :=
  if k.ready then Hex.keyToHex k.pub size else .err .invalidParam

/-- key.c:621-684 `nostr_keypair_validate`. -/
def validate (C : Curve) (ctx : Res Unit) (k : Pair) : Res Unit :=
  if k.ready then
    ctx >>= fun _ =>
    if C.valid k.priv then
      match C.pub k.priv with
      | none => .err .invalidKey
      | some p => if Hex.ctMemcmp k.pub p = 0 then .ok () else .err .invalidKey
    else .err .invalidKey
  else .err .invalidParam

/-- key.c:686-693 `nostr_keypair_public_key`; `none` is NULL. -/
def publicKey (k : Pair) : Option Bytes := if k.ready then some k.pub else none

/-- key.c:695-702 `nostr_keypair_private_key`; `none` is NULL. -/
def privateKey (k : Pair) : Option Bytes := if k.ready then some k.priv else none

/-- key.c:704-713 `nostr_keypair_destroy`. -/
def destroyPair : Pair := ⟨zeros, zeros, false⟩

/-- The calls that change a keypair. -/
inductive Op
  | init
  | generate (ctx : Res Unit) (rng : Nat → Draw)
  | fromHex (ctx : Res Unit) (hex : Bytes)
  | fromPrivate (ctx : Res Unit) (priv : Bytes)
  | destroy

/-- One call: result and new state (key.c:493-601, 704-713). -/
def step (b : Build) (lax0x : Bool) (C : Curve) (k : Pair) : Op → Res Unit × Pair
  | .init => (.ok (), initPair)
  | .generate ctx rng => pairGenerate b C ctx rng k
  | .fromHex ctx hex => fromHex lax0x C ctx k hex
  | .fromPrivate ctx priv => fromPrivate C ctx k priv
  | .destroy => (.ok (), destroyPair)

/-- A sequence of calls. -/
def run (b : Build) (lax0x : Bool) (C : Curve) : Pair → List Op → Pair
  | k, [] => k
  | k, op :: ops => run b lax0x C (step b lax0x C k op).2 ops

/-- Points of the curve as the libraries use them. `lift x` is the point with that x coordinate and even y. -/
structure Points where
  Pt : Type
  mul : Bytes → Pt → Pt
  x : Pt → Bytes
  odd : Pt → Bool
  lift : Bytes → Option Pt

/-- key.c:441-491 `nostr_key_ecdh` (after initialisation). noscrypt returns the x coordinate of the shared
point; `secp256k1_ecdh` without a hash function returns the SHA-256 of the compressed point, whose first
byte tells the parity of y (secp256k1's `ecdh_hash_function_sha256`). Validity checks on the secret are not
modelled. -/
def ecdh (b : Build) (E : Points) (sha : Bytes → Bytes) (priv pub : Bytes) : Res Bytes :=
  match E.lift pub with
  | none => .err .invalidKey
  | some P =>
      let S := E.mul priv P
      match b with
      | .noscrypt => .ok (E.x S)
      | .secp => .ok (sha ((if E.odd S then 3 else 2) :: E.x S))

end Nostr.Keys
