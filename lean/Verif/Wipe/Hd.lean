import Verif.Wipe.Basic
import Verif.Hd.Model

/-!
# What deriving keys and handling mnemonics leaves in memory (src/hd_key.c)

Objects that hold nothing but a public key (`secp256k1_pubkey`, `secp256k1_xonly_pubkey`, `compressed`) are left out, and so are
loop variables.
-/

namespace Nostr.Wipe.Hd
open Nostr Nostr.Text Nostr.Wipe
open Nostr.Hd (Crypto HdKey htonl memory4 component wordIndex words)

/-- hd_key.c:39, 56-57, 71, 109, 132, 142, 155-156, 172: the local buffers of `nostr_hd_key_from_seed` and
`nostr_hd_key_derive`; `last` is the `NCSecretKey` or the `secp256k1_keypair`, `pub` the `NCPublicKey`. -/
structure Frame where
  hash : Bytes
  data : Bytes
  priv : Bytes
  last : Bytes
  pub : Bytes

def Frame.dead (f : Frame) : List Bytes := [f.hash, f.data, f.priv, f.last, f.pub]

/-- The members of a `nostr_hd_key`, as pieces of memory. -/
def pieces (k : HdKey) : List Bytes := [k.priv, k.pub, k.chain]

/-- `memset(k, 0, sizeof(nostr_hd_key))`, `secure_wipe(k, sizeof(nostr_hd_key))`. -/
def blank (k : HdKey) : HdKey := ⟨wipe 32 k.priv, wipe 32 k.pub, wipe 32 k.chain⟩

/-- Status, the caller's key, and the local buffers at the return. -/
structure Out where
  res : Res Unit
  key : HdKey
  frame : Frame

/-- hd_key.c:37-69, 97-98 `nostr_hd_key_from_seed` with noscrypt. -/
def fromSeedNc (C : Crypto) (f : Frame) (master : HdKey) (seed : Bytes) : Out :=
  if seed.length < 16 ∨ seed.length > 64 then ⟨.err .invalidParam, master, f⟩
  else
    let master := blank master
    match C.hmac512 c!"Bitcoin seed" seed with
    | none => ⟨.err .memory, master, f⟩
    | some h =>
      let f := { f with hash := over 0 h f.hash }
      let master := { master with priv := over 0 (f.hash.take 32) master.priv }
      let master := { master with chain := over 0 ((f.hash.drop 32).take 32) master.chain }
      let f := { f with last := over 0 master.priv f.last }
      match C.xonly (f.last.take 32) with
      | none =>
        let f := { f with hash := wipe 64 f.hash }
        let master := blank master
        ⟨.err .invalidKey, master, f⟩
      | some pk =>
        let f := { f with pub := over 0 pk f.pub }
        let master := { master with pub := over 0 f.pub master.pub }
        let f := { f with last := wipe 32 f.last }
        let f := { f with hash := wipe 64 f.hash }
        ⟨.ok (), master, f⟩

/-- hd_key.c:37-53, 70-98 `nostr_hd_key_from_seed` with secp256k1; `pair` is `secp256k1_keypair_create`. The two calls that
take the public key out of the pair are one step. -/
def fromSeedSecp (C : Crypto) (pair : Bytes → Option Bytes) (f : Frame) (master : HdKey) (seed : Bytes) : Out :=
  if seed.length < 16 ∨ seed.length > 64 then ⟨.err .invalidParam, master, f⟩
  else
    let master := blank master
    match C.hmac512 c!"Bitcoin seed" seed with
    | none => ⟨.err .memory, master, f⟩
    | some h =>
      let f := { f with hash := over 0 h f.hash }
      let master := { master with priv := over 0 (f.hash.take 32) master.priv }
      let master := { master with chain := over 0 ((f.hash.drop 32).take 32) master.chain }
      match pair master.priv with
      | none =>
        let f := { f with hash := wipe 64 f.hash }
        let master := blank master
        ⟨.err .invalidKey, master, f⟩
      | some kp =>
        let f := { f with last := over 0 kp f.last }
        match C.xonly master.priv with
        | none =>
          let f := { f with hash := wipe 64 f.hash }
          let master := blank master
          let f := { f with last := wipe 96 f.last }
          ⟨.err .invalidKey, master, f⟩
        | some pk =>
          let master := { master with pub := over 0 pk master.pub }
          let f := { f with last := wipe 96 f.last }
          let f := { f with hash := wipe 64 f.hash }
          ⟨.ok (), master, f⟩

/-- hd_key.c:109-130: the data of the HMAC. -/
def deriveData (C : Crypto) (f : Frame) (parent : HdKey) (index : Nat) : Option Frame :=
  if index &&& 0x80000000 ≠ 0 then
    let d := over 0 [0] f.data
    let d := over 1 parent.priv d
    let d := over 33 (memory4 (htonl index)) d
    some { f with data := d }
  else
    match C.pubCompressed parent.priv with
    | none => none
    | some c =>
      let d := over 0 c f.data
      let d := over 33 (memory4 (htonl index)) d
      some { f with data := d }

/-- hd_key.c:154-170, 201-205: the public key of the child, with noscrypt. -/
def childNc (C : Crypto) (f : Frame) (child : HdKey) : Out :=
  let f := { f with last := over 0 f.priv f.last }
  match C.xonly (f.last.take 32) with
  | none =>
    let f := { f with hash := wipe 64 f.hash }
    let f := { f with data := wipe 37 f.data }
    let f := { f with priv := wipe 32 f.priv }
    let f := { f with last := wipe 32 f.last }
    ⟨.err .invalidKey, child, f⟩
  | some pk =>
    let f := { f with pub := over 0 pk f.pub }
    let child := { child with pub := over 0 f.pub child.pub }
    let f := { f with last := wipe 32 f.last }
    let f := { f with data := wipe 37 f.data }
    let f := { f with priv := wipe 32 f.priv }
    let f := { f with hash := wipe 64 f.hash }
    ⟨.ok (), child, f⟩

/-- hd_key.c:171-205: the public key of the child, with secp256k1. -/
def childSecp (pair : Bytes → Option Bytes) (C : Crypto) (f : Frame) (child : HdKey) : Out :=
  match pair f.priv with
  | none =>
    let f := { f with hash := wipe 64 f.hash }
    let f := { f with data := wipe 37 f.data }
    let f := { f with priv := wipe 32 f.priv }
    ⟨.err .invalidKey, child, f⟩
  | some kp =>
    let f := { f with last := over 0 kp f.last }
    match C.xonly f.priv with
    | none =>
      let f := { f with hash := wipe 64 f.hash }
      let f := { f with data := wipe 37 f.data }
      let f := { f with priv := wipe 32 f.priv }
      let f := { f with last := wipe 96 f.last }
      ⟨.err .invalidKey, child, f⟩
    | some pk =>
      let child := { child with pub := over 0 pk child.pub }
      let f := { f with last := wipe 96 f.last }
      let f := { f with data := wipe 37 f.data }
      let f := { f with priv := wipe 32 f.priv }
      let f := { f with hash := wipe 64 f.hash }
      ⟨.ok (), child, f⟩

/-- hd_key.c:101-206 `nostr_hd_key_derive`; `finish` is `childNc` or `childSecp`. A tweak that fails leaves the private key in
`child_privkey`. -/
def derive (finish : Crypto → Frame → HdKey → Out) (C : Crypto) (f : Frame) (parent : HdKey) (index : Nat) (child : HdKey) : Out :=
  let child := blank child
  match deriveData C f parent index with
  | none => ⟨.err .invalidKey, child, f⟩
  | some f =>
    match C.hmac512 parent.chain f.data with
    | none =>
      let f := { f with data := wipe 37 f.data }
      ⟨.err .memory, child, f⟩
    | some h =>
      let f := { f with hash := over 0 h f.hash }
      let child := { child with chain := over 0 ((f.hash.drop 32).take 32) child.chain }
      let f := { f with priv := over 0 parent.priv f.priv }
      match C.tweakAdd f.priv (f.hash.take 32) with
      | none =>
        let f := { f with hash := wipe 64 f.hash }
        let f := { f with data := wipe 37 f.data }
        let f := { f with priv := wipe 32 f.priv }
        ⟨.err .invalidKey, child, f⟩
      | some k =>
        let f := { f with priv := over 0 k f.priv }
        let child := { child with priv := over 0 f.priv child.priv }
        finish C f child

/-- hd_key.c:229, 257: the local keys of `nostr_hd_key_derive_path`, and the buffers of the calls it makes. -/
structure PathFrame where
  current : HdKey
  next : HdKey
  calls : Frame

/-- Status, the caller's key, and the local buffers at the return. -/
structure PathOut where
  res : Res Unit
  key : HdKey
  frame : PathFrame

/-- hd_key.c:235-278, the loop over the tokens and the end. -/
def pathLoop (D : Frame → HdKey → Nat → HdKey → Out) (f : PathFrame) (derived : HdKey) : List Bytes → PathOut
  | [] =>
    let derived := f.current
    let f := { f with current := blank f.current }
    ⟨.ok (), derived, f⟩
  | t :: ts =>
    match component t with
    | none =>
      let f := { f with current := blank f.current }
      ⟨.err .invalidParam, derived, f⟩
    | some index =>
      let o := D f.calls f.current index f.next
      let f := { f with next := o.key, calls := o.frame }
      match o.res with
      | .ok () =>
        let f := { f with current := blank f.current }
        let f := { f with current := f.next }
        let f := { f with next := blank f.next }
        pathLoop D f derived ts
      | r =>
        let f := { f with current := blank f.current }
        ⟨r, derived, f⟩

/-- hd_key.c:208-279 `nostr_hd_key_derive_path`, and the blocks it releases. The tokens are cut out of the copy of the path in
place, which is not modelled: the copy is wiped as a whole. -/
def derivePath (D : Frame → HdKey → Nat → HdKey → Out) (f : PathFrame) (derived master : HdKey) (path : Bytes) : PathOut × List Bytes :=
  match path with
  | [0x6d] => (⟨.ok (), master, f⟩, [])
  | 0x6d :: 0x2f :: rest =>
    let copy := rest ++ [0]
    let f := { f with current := master }
    (pathLoop D f derived (tokens 0x2f rest), [wipe rest.length copy])
  | _ => (⟨.err .invalidParam, derived, f⟩, [])

/-! ## Mnemonics -/

/-- hd_key.c:330-332, 391, 428, 443: the local buffers; `indices` is `int indices[24]`, in bytes. -/
structure WordFrame where
  indices : Bytes
  entropy : Bytes
  hash : Bytes

def WordFrame.dead (f : WordFrame) : List Bytes := [f.indices, f.entropy, f.hash]

/-- hd_key.c:396-411: the loop over the words; `none` when it stops at a word. -/
def lookUp : List Bytes → Nat → Bytes → Option Nat × Bytes
  | [], n, indices => (some n, indices)
  | w :: ws, n, indices =>
    if n < 24 then
      match wordIndex w with
      | none => (none, indices)
      | some i => lookUp ws (n + 1) (over (4 * n) (memory4 i) indices)
    else (none, indices)

/-- hd_key.c:428-457: the entropy and the checksum; `is` are the indices of the words. -/
def checkW (C : Crypto) (f : WordFrame) (is : List Nat) (entropyBytes checksumBits : Nat) : Res Unit × WordFrame :=
  let f := { f with entropy := over 0 (List.replicate 33 0) f.entropy }
  match Nostr.Hd.wordLoop is 0 f.entropy with
  | .ok e =>
    let f := { f with entropy := e }
    let f := { f with hash := over 0 (C.sha256 (e.take entropyBytes)) f.hash }
    let r := Nostr.Hd.checkSum C f.entropy entropyBytes checksumBits
    let f := { f with entropy := wipe 33 f.entropy }
    let f := { f with hash := wipe 32 f.hash }
    (r, f)
  | .err x => (.err x, f)
  | .ub => (.ub, f)

/-- The indices read back from the array. -/
def indexWord (indices : Bytes) (i : Nat) : Nat :=
  (indices.getD (4 * i) 0).toNat + 256 * (indices.getD (4 * i + 1) 0).toNat

/-- hd_key.c:379-458 `nostr_mnemonic_validate`: status, local buffers, released block. The words are cut out of the copy in
place, which is not modelled: the copy is wiped as a whole. Of a word index the two low bytes are read. -/
def validate (C : Crypto) (f : WordFrame) (mnemonic : Bytes) : (Res Unit × WordFrame) × List Bytes :=
  if mnemonic = [] then ((.err .invalidParam, f), [])
  else
    let copy := mnemonic ++ [0]
    let f := { f with indices := over 0 (List.replicate 96 0) f.indices }
    match lookUp (tokens 0x20 mnemonic) 0 f.indices with
    | (none, ix) => ((.err .invalidParam, { f with indices := ix }), [wipe mnemonic.length copy])
    | (some n, ix) =>
      let f := { f with indices := ix }
      let is := (List.range n).map (indexWord f.indices)
      if n = 12 then (checkW C f is 16 4, [wipe mnemonic.length copy])
      else if n = 24 then (checkW C f is 32 8, [wipe mnemonic.length copy])
      else ((.err .invalidParam, f), [wipe mnemonic.length copy])

/-- hd_key.c:330-332: the local buffers of `nostr_mnemonic_generate`. -/
structure GenFrame where
  entropy : Bytes
  hash : Bytes
  combined : Bytes

def GenFrame.dead (f : GenFrame) : List Bytes := [f.entropy, f.hash, f.combined]

/-- hd_key.c:345-371: the loop over the words, in the caller's buffer; `pos` is the length of what is written. -/
def wordsOut (combined : Bytes) (size : Nat) : List Nat → Nat → Bytes → Res Unit × Bytes
  | [], pos, out => (.ok (), over pos [0] out)
  | i :: is, pos, out =>
    match words[Nostr.Hd.indexAt combined i]? with
    | none => (.ub, out)
    | some word =>
      if pos + word.length + (if i > 0 then 1 else 0) ≥ size then (.err .invalidParam, out)
      else
        let out := if i > 0 then over pos [0x20] out else out
        let pos := if i > 0 then pos + 1 else pos
        wordsOut combined size is (pos + word.length) (over pos word out)

/-- hd_key.c:315-377 `nostr_mnemonic_generate`: status, the caller's buffer, local buffers. -/
def generate (C : Crypto) (f : GenFrame) (entropy : Option Bytes) (wordCount : Int) (out : Bytes) : (Res Unit × Bytes) × GenFrame :=
  if out.length = 0 then ((.err .invalidParam, out), f)
  else if wordCount ≠ 12 ∧ wordCount ≠ 24 then ((.err .invalidParam, out), f)
  else
    let f := { f with combined := over 0 (List.replicate 34 0) f.combined }
    match entropy with
    | none => ((.err .memory, out), f)
    | some e =>
      let f := { f with entropy := over 0 e f.entropy }
      let f := { f with hash := over 0 (C.sha256 e) f.hash }
      let f := { f with combined := over 0 e f.combined }
      let f := { f with combined := over e.length [f.hash.getD 0 0] f.combined }
      let r := wordsOut f.combined out.length (List.range wordCount.toNat) 0 out
      match r.1 with
      | .ub => (r, f)
      | _ =>
        let f := { f with entropy := wipe 32 f.entropy }
        let f := { f with combined := wipe 34 f.combined }
        (r, f)

/-- hd_key.c:504-533, 539-560: the salt, PBKDF2 and the end; `norm` are the normalised texts (blocks with their terminator),
`room` says that the block of the salt is granted. Gives status, the caller's seed and the released blocks. -/
def seedEnd (C : Crypto) (room : Bool) (norm : List Bytes) (m p seed : Bytes) : (Res Unit × Bytes) × List Bytes :=
  if room = false then ((.err .memory, seed), norm.map (· ++ [0]))
  else
    let salt := c!"mnemonic" ++ p ++ [0]
    match C.pbkdf2 m (c!"mnemonic" ++ p) 2048 64 with
    | none => ((.err .memory, seed), wipe (8 + p.length + 1) salt :: norm.map fun s => wipe s.length (s ++ [0]))
    | some s => ((.ok (), over 0 s seed), wipe (8 + p.length + 1) salt :: norm.map fun s => wipe s.length (s ++ [0]))

/-- hd_key.c:478-562 `nostr_mnemonic_to_seed`: status, the caller's seed, local buffers of the validation, released blocks. -/
def toSeed (C : Crypto) (f : WordFrame) (room : Bool) (mnemonic : Bytes) (passphrase : Option Bytes) (seed : Bytes) :
    ((Res Unit × Bytes) × WordFrame) × List Bytes :=
  let v := validate C f mnemonic
  match v.1.1 with
  | .ok () =>
    match C.nfkd with
    | some norm =>
      match norm mnemonic with
      | none => (((.err .memory, seed), v.1.2), v.2)
      | some m =>
        match passphrase with
        | none =>
          let r := seedEnd C room [m] m [] seed
          ((r.1, v.1.2), v.2 ++ r.2)
        | some p =>
          match norm p with
          | none => (((.err .memory, seed), v.1.2), v.2 ++ [m ++ [0]])
          | some p =>
            let r := seedEnd C room [m, p] m p seed
            ((r.1, v.1.2), v.2 ++ r.2)
    | none =>
      if Nostr.Hd.isAscii mnemonic = false ∨ Nostr.Hd.isAscii (passphrase.getD []) = false then (((.err .invalidParam, seed), v.1.2), v.2)
      else
        let r := seedEnd C room [] mnemonic (passphrase.getD []) seed
        ((r.1, v.1.2), v.2 ++ r.2)
  | r => (((r, seed), v.1.2), v.2)

/-- hd_key.c:571, 577, 587: the local buffers of `nostr_mnemonic_to_keypair`, and those of the calls it makes. -/
structure PairFrame where
  seed : Bytes
  master : HdKey
  derived : HdKey
  word : WordFrame
  path : PathFrame

/-- hd_key.c:564-598 `nostr_mnemonic_to_keypair`: status, the caller's private and public key, local buffers, released
blocks. -/
def toKeypair (C : Crypto) (S : Frame → HdKey → Bytes → Out) (D : Frame → HdKey → Nat → HdKey → Out) (f : PairFrame) (room : Bool)
    (mnemonic : Bytes) (passphrase : Option Bytes) (account : Nat) (pair : Bytes × Bytes) : ((Res Unit × Bytes × Bytes) × PairFrame) × List Bytes :=
  let s := toSeed C f.word room mnemonic passphrase f.seed
  let f := { f with seed := s.1.1.2, word := s.1.2 }
  match s.1.1.1 with
  | .ok () =>
    let o := S f.path.calls f.master f.seed
    let f := { f with master := o.key, path := { f.path with calls := o.frame } }
    let f := { f with seed := wipe 64 f.seed }
    match o.res with
    | .ok () =>
      let path := c!"m/44'/1237'/" ++ Num.decNat account ++ c!"'/0/0"
      let d := derivePath D f.path f.derived f.master (path.take 63)
      let f := { f with path := d.1.frame, derived := d.1.key }
      let f := { f with master := blank f.master }
      match d.1.res with
      | .ok () =>
        let pair := Nostr.Hd.toKeypair f.derived
        let f := { f with derived := blank f.derived }
        (((.ok (), pair), f), s.2 ++ d.2)
      | r => (((r, pair), f), s.2 ++ d.2)
    | r => (((r, pair), f), s.2)
  | r => (((r, pair), f), s.2)

end Nostr.Wipe.Hd
