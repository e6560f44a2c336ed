import Verif.Hd.Model
import Verif.Bits

/-! # BIP-39, BIP-32 and NIP-06 (specification) -/

namespace Nostr.Hd.Spec
open Nostr

/-! ## BIP-39 -/

/-- The bits of the numbers in order, `w` each, most significant first. -/
def bits (w : Nat) (ns : List Nat) : List Bool := ns.flatMap (bitsBE w)

/-- The bits of bytes in order. -/
def byteBits (b : Bytes) : List Bool := bits 8 (b.map (·.toNat))

/-- BIP-39: `ws` are the words of `entropy`.  The entropy bits followed by the first `ENT/32` bits of its
hash, in groups of eleven, number the words in the list. -/
def IsMnemonic (sha256 : Bytes → Bytes) (entropy : Bytes) (ws : List Bytes) : Prop :=
  ∃ numbers : List Nat, (∀ n ∈ numbers, n < 2048) ∧
    bits 11 numbers = byteBits entropy ++ (byteBits (sha256 entropy)).take (8 * entropy.length / 32) ∧
    ws = numbers.map fun n => words.getD n []

/-- A hash with 32 bytes. -/
def Sha (sha256 : Bytes → Bytes) : Prop := ∀ m, (sha256 m).length = 32

/-! ## BIP-32 -/

/-- `ser32`: four bytes, most significant first. -/
def ser32 (i : Nat) : Bytes :=
  [UInt8.ofNat (i / 2 ^ 24), UInt8.ofNat (i / 2 ^ 16), UInt8.ofNat (i / 2 ^ 8), UInt8.ofNat i]

/-- BIP-32 `CKDpriv((k, c), i)` gives the key and chain code of `child`, whose public key is the x-only
one: `I = HMAC-SHA512(c, data)`, the child key is `I_L + k`, the child chain code `I_R`; the data are a
zero byte and the private key for the hardened indices (2³¹ and above), the compressed public key
otherwise, and the index. -/
def IsChild (C : Crypto) (parent : HdKey) (i : Nat) (child : HdKey) : Prop :=
  ∃ data I, (if 2 ^ 31 ≤ i then data = [0x00] ++ parent.priv ++ ser32 i
      else ∃ p, C.pubCompressed parent.priv = some p ∧ data = p ++ ser32 i) ∧
    C.hmac512 parent.chain data = some I ∧
    C.tweakAdd parent.priv (I.take 32) = some child.priv ∧
    child.chain = (I.drop 32).take 32 ∧ C.xonly child.priv = some child.pub

/-- BIP-32 master key: `I = HMAC-SHA512("Bitcoin seed", seed)`, key `I_L`, chain code `I_R`. -/
def IsMaster (C : Crypto) (seed : Bytes) (k : HdKey) : Prop :=
  ∃ I, C.hmac512 c!"Bitcoin seed" seed = some I ∧ k.priv = I.take 32 ∧ k.chain = (I.drop 32).take 32 ∧
    C.xonly k.priv = some k.pub

/-- Descend along indices. -/
inductive Descends (C : Crypto) : HdKey → List Nat → HdKey → Prop
  | here (k : HdKey) : Descends C k [] k
  | step {k k' k'' : HdKey} {i : Nat} {is : List Nat} :
      IsChild C k i k' → Descends C k' is k'' → Descends C k (i :: is) k''

/-- A path component: a number below 2³¹ and how hardening is marked, if at all. -/
inductive Mark | none | apostrophe | h
deriving DecidableEq

def Mark.text : Mark → Bytes
  | .none => []
  | .apostrophe => c!"'"
  | .h => c!"h"

/-- Its index. -/
def index (c : Nat × Mark) : Nat := if c.2 = .none then c.1 else c.1 + 2 ^ 31

/-- The path text: `m`, then `/` and each component. -/
def pathText (cs : List (Nat × Mark)) : Bytes :=
  c!"m" ++ cs.flatMap fun c => c!"/" ++ Num.decNat c.1 ++ c.2.text

end Nostr.Hd.Spec
