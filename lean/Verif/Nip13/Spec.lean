import Verif.Nip13.Model

/-! # Vocabulary for proof-of-work properties -/

namespace Nostr.Nip13.Spec
open Nostr Nostr.Event Nostr.Nip13

/-- Bit `i` of an id, most significant bit of the first byte first. -/
def bitAt (id : Bytes) (i : Nat) : Bool := (id.getD (i / 8) 0).toNat.testBit (7 - i % 8)

/-- The first `k` bits are zero. -/
def ZeroBits (id : Bytes) (k : Nat) : Prop := ∀ i < k, bitAt id i = false

/-- `new` is `old` with the (first) nonce tag carrying `nonce` and committing to `target`: appended if
there was none, otherwise its second and third value replaced; all other tags and values are the same. -/
def NonceTags (old new : List (List Bytes)) (nonce : Nat) (target : Int) : Prop :=
  ((∀ t ∈ old, t.head? ≠ some (c!"nonce")) ∧
    new = old ++ [[c!"nonce", Num.decNat nonce, Num.decInt target]]) ∨
  ∃ pre v rest post, old = pre ++ (c!"nonce" :: v :: rest) :: post ∧
    (∀ t ∈ pre, t.head? ≠ some (c!"nonce")) ∧
    new = pre ++ (c!"nonce" :: Num.decNat nonce :: Num.decInt target :: rest.drop 1) :: post

/-- `e` is a mined version of `e0` with the given nonce: id freshly computed from `e`, enough zero bits,
nonce tag in place, nothing else but the time changed. -/
structure Mined (C : Crypto) (b : Build) (e0 : Event) (target : Int) (nonce : Nat) (e : Event) : Prop where
  id : ∃ text, serialize b e = .ok text ∧ e.id = C.sha256 text
  work : ZeroBits e.id target.toNat
  tags : NonceTags e0.tags e.tags nonce target
  pubkey : e.pubkey = e0.pubkey
  kind : e.kind = e0.kind
  content : e.content = e0.content
  sig : e.sig = e0.sig

end Nostr.Nip13.Spec
