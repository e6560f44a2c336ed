import Verif.Keys.Model
import Verif.Wipe.Hd

/-!
# Calls whose result lies over their argument (src/utils.c, src/key.c, src/hd_key.c)

The functions are followed through one memory that holds both the argument and the result, so that what is written is seen by
what is read later. The memory is a list of bytes; a read or a write beyond its end is undefined behaviour.
-/

namespace Nostr.Alias
open Nostr Nostr.Text Nostr.Wipe
open Nostr.Hd (HdKey Crypto htonl memory4)

abbrev Mem := Bytes

/-- A byte read through a pointer. -/
def rd (m : Mem) (a : Nat) : Res UInt8 :=
  match m[a]? with
  | some b => .ok b
  | none => .ub

/-- Bytes written through a pointer. -/
def put (m : Mem) (a : Nat) (bs : Bytes) : Res Mem := if a + bs.length ≤ m.length then .ok (over a bs m) else .ub

/-- The bytes at an address. -/
def view (m : Mem) (a n : Nat) : Bytes := (m.drop a).take n

/-- The text at an address, up to its terminator: what `strlen` counts and what `sscanf` is given. -/
def textAt (m : Mem) (a : Nat) : Res Bytes :=
  match (m.drop a).findIdx? (· == 0) with
  | some n => .ok (view m a n)
  | none => .ub

/-- `memcpy`: undefined when the regions overlap (C11 7.24.2.1), and so when they are the same. -/
def memcpy (m : Mem) (dst src n : Nat) : Res Mem :=
  if n ≠ 0 ∧ dst < src + n ∧ src < dst + n then .ub
  else if src + n ≤ m.length then put m dst (view m src n) else .ub

/-! ## Hexadecimal -/

/-- utils.c:58-63: the loop; `k` bytes to go, `i` done. Gives false when it stops at a character that is no digit. -/
def decodeLoop (p q : Nat) : Nat → Nat → Mem → Res (Bool × Mem)
  | 0, _, m => .ok (true, m)
  | k + 1, i, m =>
    rd m (p + 2 * i) >>= fun a =>
    rd m (p + (2 * i + 1)) >>= fun b =>
    match Hex.nibble a, Hex.nibble b with
    | some h, some l => put m (q + i) [UInt8.ofNat ((h <<< 4) ||| l)] >>= decodeLoop p q k (i + 1)
    | _, _ => .ok (false, m)

/-- utils.c:54-65 `nostr_hex_decode(m + p, m + q, outLen)`: the number of bytes (`none` is -1), and the memory. -/
def hexDecode (m : Mem) (p q outLen : Nat) : Res (Option Nat × Mem) :=
  textAt m p >>= fun s =>
  if s.length % 2 ≠ 0 ∨ s.length / 2 > outLen then .ok (none, m)
  else decodeLoop p q (s.length / 2) 0 m >>= fun r => .ok (if r.1 then some (s.length / 2) else none, r.2)

/-- key.c:388-392, 419-423: the loop; `k` bytes to go, `i` done. -/
def scanLoop (lax0x : Bool) (p q : Nat) : Nat → Nat → Mem → Res (Res Unit × Mem)
  | 0, _, m => .ok (.ok (), m)
  | k + 1, i, m =>
    textAt m (p + i * 2) >>= fun s =>
    match Hex.scan2 lax0x s with
    | none => .ok (.err .invalidKey, m)
    | some b => put m (q + i) [b] >>= scanLoop lax0x p q k (i + 1)

/-- key.c:379-395 `nostr_key_from_hex(m + p, m + q)` and 410-426 `nostr_privkey_from_hex`: status and memory. -/
def keyFromHex (lax0x : Bool) (m : Mem) (p q : Nat) : Res (Res Unit × Mem) :=
  textAt m p >>= fun s => if s.length ≠ 64 then .ok (.err .invalidKey, m) else scanLoop lax0x p q 32 0 m

/-- utils.c:69-71, key.c:402-404, 433-435: `sprintf(m + q + 2 * i, "%02x", m[p + i])`, with its terminator; `k` bytes to go. -/
def encodeLoop (p q : Nat) : Nat → Nat → Mem → Res Mem
  | 0, _, m => .ok m
  | k + 1, i, m =>
    rd m (p + i) >>= fun b => put m (q + 2 * i) (Hex.hexEncode [b] ++ [0]) >>= encodeLoop p q k (i + 1)

/-- utils.c:67-73 `nostr_hex_encode(m + p, len, m + q)`. -/
def hexEncode (m : Mem) (p len q : Nat) : Res Mem :=
  encodeLoop p q len 0 m >>= fun m => put m (q + len * 2) [0]

/-- key.c:397-408 `nostr_key_to_hex(m + p, m + q, hexSize)` and 428-439 `nostr_privkey_to_hex`: status and memory. -/
def keyToHex (m : Mem) (p q hexSize : Nat) : Res (Res Unit × Mem) :=
  if hexSize < 65 then .ok (.err .invalidParam, m)
  else encodeLoop p q 32 0 m >>= fun m => put m (q + 64) [0] >>= fun m => .ok (.ok (), m)

/-! ## Keypairs -/

/-- key.c:534-601 `nostr_keypair_from_private_key(m + k, m + src)` once the library is initialised: status and memory. A
`nostr_keypair` is the private key, the public key and the flag, an `int` of four bytes (include/nostr.h:118-122). -/
def fromPrivate (C : Keys.Curve) (m : Mem) (k src : Nat) : Res (Res Unit × Mem) :=
  memcpy m k src 32 >>= fun m =>
  if C.valid (view m src 32) then
    match C.pub (view m src 32) with
    | none => put m k (List.replicate 32 0) >>= fun m => .ok (.err .invalidKey, m)
    | some p => put m (k + 32) p >>= fun m => put m (k + 64) [1, 0, 0, 0] >>= fun m => .ok (.ok (), m)
  else put m k (List.replicate 32 0) >>= fun m => .ok (.err .invalidKey, m)

/-- key.c:520-532 `nostr_keypair_from_private_hex(m + k, m + p)` once the library is initialised. -/
def fromHex (lax0x : Bool) (C : Keys.Curve) (m : Mem) (k p : Nat) : Res (Res Unit × Mem) :=
  keyFromHex lax0x m p k >>= fun r =>
  match r.1 with
  | .ok () => fromPrivate C r.2 k k
  | e => .ok (e, r.2)

/-! ## Derived keys -/

/-- The keys of the caller, by address. -/
abbrev Store := Nat → HdKey

/-- A key written. -/
def Store.set (s : Store) (a : Nat) (k : HdKey) : Store := fun b => if b = a then k else s b

/-- hd_key.c:101-206 `nostr_hd_key_derive(&parent, index, &child)`, the keys at the addresses `pa` and `ca`: status and keys.
`finish` is the end of the function with noscrypt or with secp256k1 (`Wipe.Hd.childNc`, `childSecp`); it reads and writes the
child only. -/
def derive (finish : Crypto → Wipe.Hd.Frame → HdKey → Wipe.Hd.Out) (C : Crypto) (f : Wipe.Hd.Frame) (s : Store) (pa index ca : Nat) :
    Res Unit × Store :=
  let s := s.set ca (Wipe.Hd.blank (s ca))
  match Wipe.Hd.deriveData C f (s pa) index with
  | none => (.err .invalidKey, s)
  | some f =>
    match C.hmac512 (s pa).chain f.data with
    | none => (.err .memory, s)
    | some h =>
      let f := { f with hash := over 0 h f.hash }
      let s := s.set ca { s ca with chain := over 0 ((f.hash.drop 32).take 32) (s ca).chain }
      let f := { f with priv := over 0 (s pa).priv f.priv }
      match C.tweakAdd f.priv (f.hash.take 32) with
      | none => (.err .invalidKey, s)
      | some k =>
        let f := { f with priv := over 0 k f.priv }
        let s := s.set ca { s ca with priv := over 0 f.priv (s ca).priv }
        let o := finish C f (s ca)
        (o.res, s.set ca o.key)

/-- hd_key.c:208-279 `nostr_hd_key_derive_path(&master, path, &derived)`, the keys at the addresses `ma` and `da`. The steps in
between work on local keys. -/
def derivePath (C : Crypto) (s : Store) (ma : Nat) (path : Bytes) (da : Nat) : Res Unit × Store :=
  match path with
  | [0x6d] => if ma = da then (.ub, s) else (.ok (), s.set da (s ma))
  | 0x6d :: 0x2f :: rest =>
    let current := s ma
    match Nostr.Hd.pathLoop C (tokens 0x2f rest) current with
    | .ok k => (.ok (), s.set da k)
    | .err e => (.err e, s)
    | .ub => (.ub, s)
  | _ => (.err .invalidParam, s)

end Nostr.Alias
