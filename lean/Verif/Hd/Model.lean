import Verif.Hd.Words
import Verif.Num
import Verif.Text

/-!
# Model of src/hd_key.c (BIP-32 derivation, BIP-39 mnemonics, NIP-06)

OpenSSL (HMAC-SHA512, SHA-256, PBKDF2), secp256k1 and utf8proc are parameters (`Crypto`); `none` is a
failure return.  `malloc`/`strdup` are assumed to succeed; what local buffers hold at the return (see `Verif/Wipe/Hd.lean`) and the
contents of output parameters after a failure are not modelled; calls with `NULL` arguments return
`NOSTR_ERR_INVALID_PARAM` and are not modelled.
-/

namespace Nostr.Hd
open Nostr Nostr.Text

/-- The library functions used by hd_key.c. -/
structure Crypto where
  /-- `HMAC(EVP_sha512(), key, data)`. -/
  hmac512 : Bytes → Bytes → Option Bytes
  /-- `SHA256`. -/
  sha256 : Bytes → Bytes
  /-- `PKCS5_PBKDF2_HMAC(password, salt, iterations, EVP_sha512(), length)`. -/
  pbkdf2 : Bytes → Bytes → Nat → Nat → Option Bytes
  /-- `secp256k1_ec_pubkey_create` and compressed serialisation (33 bytes). -/
  pubCompressed : Bytes → Option Bytes
  /-- `secp256k1_ec_seckey_tweak_add(key, tweak)`. -/
  tweakAdd : Bytes → Bytes → Option Bytes
  /-- `NCGetPublicKey`, or key pair creation and x-only serialisation. -/
  xonly : Bytes → Option Bytes
  /-- `utf8proc_NFKD` when built with utf8proc. -/
  nfkd : Option (Bytes → Option Bytes)

/-- nostr.h:139-143 `nostr_hd_key`. -/
structure HdKey where
  priv : Bytes
  pub : Bytes
  chain : Bytes
deriving DecidableEq

/-- hd_key.c:37-99 `nostr_hd_key_from_seed`. -/
def fromSeed (C : Crypto) (seed : Bytes) : Res HdKey :=
  if seed.length < 16 ∨ seed.length > 64 then .err .invalidParam
  else match C.hmac512 c!"Bitcoin seed" seed with
    | none => .err .memory
    | some hash =>
      match C.xonly (hash.take 32) with
      | none => .err .invalidKey
      | some pk => .ok ⟨hash.take 32, pk, (hash.drop 32).take 32⟩

/-- `htonl` on a little-endian machine (hd_key.c:110): the bytes in reverse order. -/
def htonl (i : Nat) : Nat :=
  (i % 256) * 16777216 + (i / 256 % 256) * 65536 + (i / 65536 % 256) * 256 + i / 16777216 % 256

/-- The four bytes of a `uint32_t` in memory of a little-endian machine (`memcpy(…, &index_be, 4)`). -/
def memory4 (v : Nat) : Bytes :=
  [UInt8.ofNat v, UInt8.ofNat (v / 256), UInt8.ofNat (v / 65536), UInt8.ofNat (v / 16777216)]

/-- hd_key.c:143-205: the HMAC of the data and the child key. -/
def deriveFinish (C : Crypto) (parent : HdKey) (data : Bytes) : Res HdKey :=
  match C.hmac512 parent.chain data with
  | none => .err .memory
  | some hash =>
    match C.tweakAdd parent.priv (hash.take 32) with
    | none => .err .invalidKey
    | some child =>
      match C.xonly child with
      | none => .err .invalidKey
      | some pk => .ok ⟨child, pk, (hash.drop 32).take 32⟩

/-- hd_key.c:101-206 `nostr_hd_key_derive`; `index` is a `uint32_t`. -/
def derive (C : Crypto) (parent : HdKey) (index : Nat) : Res HdKey :=
  let indexBe := htonl index
  if index &&& 0x80000000 ≠ 0 then deriveFinish C parent ([0] ++ parent.priv ++ memory4 indexBe)
  else match C.pubCompressed parent.priv with
    | none => .err .invalidKey
    | some compressed => deriveFinish C parent (compressed ++ memory4 indexBe)

/-- hd_key.c:236-256: one token of the path, giving the child index; `none` is
`NOSTR_ERR_INVALID_PARAM`. -/
def component (token : Bytes) : Option Nat :=
  let hardened := decide (token.length > 0) && (token.getLast? == some 0x27 || token.getLast? == some 0x68)
  let token := if hardened then token.dropLast else token
  let r := Num.strtoul token
  let index := r.1 % 2 ^ 32
  if r.2 ≠ [] ∨ index ≥ 0x80000000 then none
  else some (if hardened then index ||| 0x80000000 else index)

/-- hd_key.c:235-271, the loop over the tokens. -/
def pathLoop (C : Crypto) : List Bytes → HdKey → Res HdKey
  | [], current => .ok current
  | t :: ts, current =>
    match component t with
    | none => .err .invalidParam
    | some index => do
      let next ← derive C current index
      pathLoop C ts next

/-- hd_key.c:208-279 `nostr_hd_key_derive_path`. -/
def derivePath (C : Crypto) (master : HdKey) (path : Bytes) : Res HdKey :=
  match path with
  | [0x6d] => .ok master
  | 0x6d :: 0x2f :: rest => pathLoop C (tokens 0x2f rest) master
  | _ => .err .invalidParam

/-- hd_key.c:281-294 `nostr_hd_key_to_keypair`: private and public key. -/
def toKeypair (k : HdKey) : Bytes × Bytes := (k.priv, k.pub)

/-- C `strcmp` on two texts: the sign of the result. -/
def strcmp : Bytes → Bytes → Int
  | [], [] => 0
  | [], _ :: _ => -1
  | _ :: _, [] => 1
  | a :: as, b :: bs => if a < b then -1 else if b < a then 1 else strcmp as bs

/-- hd_key.c:301-311, the loop of the binary search; `fuel` bounds the iterations (the interval
shrinks in each). -/
def searchLoop (table : List Bytes) (word : Bytes) : Nat → Int → Int → Option Nat
  | 0, _, _ => none
  | fuel + 1, left, right =>
    if left ≤ right then
      let mid := left + (right - left) / 2
      let cmp := strcmp word (table.getD mid.toNat [])
      if cmp = 0 then some mid.toNat
      else if cmp < 0 then searchLoop table word fuel left (mid - 1)
      else searchLoop table word fuel (mid + 1) right
    else none

/-- hd_key.c:296-313 `bip39_word_index`; `none` is -1. -/
def wordIndex (word : Bytes) : Option Nat := searchLoop words word 2049 0 (2048 - 1)

/-- hd_key.c:346-354: the index of word `i`. -/
def indexAt (combined : Bytes) (i : Nat) : Nat :=
  let bitOffset := i * 11
  let byteOffset := bitOffset / 8
  let bitShift := bitOffset % 8
  let w := ((combined.getD byteOffset 0).toNat <<< 16) ||| ((combined.getD (byteOffset + 1) 0).toNat <<< 8) |||
    (combined.getD (byteOffset + 2) 0).toNat
  (w >>> (24 - 11 - bitShift)) &&& 0x7FF

/-- hd_key.c:345-370, the loop writing the words; `text` is what is written so far. -/
def writeLoop (combined : Bytes) (size : Nat) : List Nat → Bytes → Res Bytes
  | [], text => .ok text
  | i :: is, text =>
    match words[indexAt combined i]? with
    | none => .ub
    | some word =>
      if text.length + word.length + (if i > 0 then 1 else 0) ≥ size then .err .invalidParam
      else writeLoop combined size is (text ++ (if i > 0 then [0x20] else []) ++ word)

/-- hd_key.c:315-377 `nostr_mnemonic_generate`; `entropy` is what `nostr_random_bytes` delivers (16 or
32 bytes), `none` when it fails. -/
def generate (C : Crypto) (entropy : Option Bytes) (wordCount : Int) (size : Nat) : Res Bytes :=
  if size = 0 then .err .invalidParam
  else if wordCount ≠ 12 ∧ wordCount ≠ 24 then .err .invalidParam
  else match entropy with
    | none => .err .memory
    | some e =>
      let combined := e ++ [(C.sha256 e).getD 0 0] ++ List.replicate (33 - e.length) 0
      writeLoop combined size (List.range wordCount.toNat) []

/-- hd_key.c:396-412: look up the words, at most 24. -/
def readWords : List Bytes → Nat → Res (List Nat)
  | [], _ => .ok []
  | w :: ws, n =>
    if n < 24 then
      match wordIndex w with
      | none => .err .invalidParam
      | some i => do
        let is ← readWords ws (n + 1)
        return i :: is
    else .err .invalidParam

/-- hd_key.c:438: `entropy[byte_idx] |= (1 << bit_idx)` in `entropy[33]`. -/
def setBit (e : Bytes) (pos : Nat) : Res Bytes :=
  if pos / 8 < e.length then
    .ok (e.set (pos / 8) (UInt8.ofNat ((e.getD (pos / 8) 0).toNat ||| 1 <<< (7 - pos % 8))))
  else .ub

/-- hd_key.c:433-440, the loop over the bits of one word index. -/
def bitLoop (idx i : Nat) : List Nat → Bytes → Res Bytes
  | [], e => .ok e
  | b :: bs, e =>
    if idx &&& (1 <<< (10 - b)) ≠ 0 then do
      let e' ← setBit e (i * 11 + b)
      bitLoop idx i bs e'
    else bitLoop idx i bs e

/-- hd_key.c:431-441, the loop over the words (`i` is the number of the next one). -/
def wordLoop : List Nat → Nat → Bytes → Res Bytes
  | [], _, e => .ok e
  | idx :: rest, i, e => do
    let e' ← bitLoop idx i (List.range 11) e
    wordLoop rest (i + 1) e'

/-- hd_key.c:443-457, the checksum. -/
def checkSum (C : Crypto) (e : Bytes) (entropyBytes checksumBits : Nat) : Res Unit :=
  let hash := C.sha256 (e.take entropyBytes)
  let mask := (1 <<< checksumBits) - 1
  let expected := ((hash.getD 0 0).toNat >>> (8 - checksumBits)) &&& mask
  let actual := (e.getD entropyBytes 0).toNat >>> (8 - checksumBits)
  if expected ≠ actual then .err .invalidParam else .ok ()

/-- hd_key.c:379-458 `nostr_mnemonic_validate`. -/
def validate (C : Crypto) (mnemonic : Bytes) : Res Unit :=
  if mnemonic = [] then .err .invalidParam
  else do
    let indices ← readWords (tokens 0x20 mnemonic) 0
    let e ← (if indices.length = 12 ∨ indices.length = 24 then wordLoop indices 0 (List.replicate 33 0)
      else .err .invalidParam)
    if indices.length = 12 then checkSum C e 16 4 else checkSum C e 32 8

/-- hd_key.c:468-475 `is_ascii_string`. -/
def isAscii (s : Bytes) : Bool := s.all fun c => decide (c ≤ 127)

/-- hd_key.c:478-562 `nostr_mnemonic_to_seed`; `passphrase` is `none` for `NULL`. -/
def toSeed (C : Crypto) (mnemonic : Bytes) (passphrase : Option Bytes) : Res Bytes := do
  validate C mnemonic
  match C.nfkd with
  | some norm =>
    match norm mnemonic with
    | none => .err .memory
    | some m =>
      match passphrase with
      | none => run m []
      | some p =>
        match norm p with
        | none => .err .memory
        | some p => run m p
  | none =>
    if isAscii mnemonic = false ∨ isAscii (passphrase.getD []) = false then .err .invalidParam
    else run mnemonic (passphrase.getD [])
where
  /-- hd_key.c:505-533 / 542-560: PBKDF2 with the salt "mnemonic" and the passphrase. -/
  run (m p : Bytes) : Res Bytes :=
    match C.pbkdf2 m (c!"mnemonic" ++ p) 2048 64 with
    | none => .err .memory
    | some seed => .ok seed

/-- hd_key.c:564-598 `nostr_mnemonic_to_keypair`; `account` is a `uint32_t`.  The path fits `path[64]`. -/
def toKeypairOf (C : Crypto) (mnemonic : Bytes) (passphrase : Option Bytes) (account : Nat) : Res (Bytes × Bytes) := do
  let seed ← toSeed C mnemonic passphrase
  let master ← fromSeed C seed
  let path := c!"m/44'/1237'/" ++ Num.decNat account ++ c!"'/0/0"
  let derived ← derivePath C master (path.take 63)
  return toKeypair derived

end Nostr.Hd
