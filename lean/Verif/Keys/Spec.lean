import Verif.Keys.Model

/-! # Vocabulary for keys and keypairs -/

namespace Nostr.Keys.Spec
open Nostr Nostr.Keys

/-- The sizes of the requests for `len` bytes: as many full ones as fit, and the rest. -/
def requests (max len : Nat) : List Nat :=
  List.replicate (len / max) max ++ (if len % max = 0 then [] else [len % max])

/-- The answers to the requests `ns`, the first of which has number `i`; `none` if one of them fails. -/
def answers (draw : Nat → Nat → Option Bytes) : Nat → List Nat → Option (List Bytes)
  | _, [] => some []
  | i, n :: ns => match draw i n, answers draw (i + 1) ns with
      | some b, some bs => some (b :: bs)
      | _, _ => none

/-- A keypair from which keys can be read holds a valid secret and its public key. -/
def Consistent (C : Curve) (k : Pair) : Prop :=
  k.ready = true → C.valid k.priv = true ∧ C.pub k.priv = some k.pub

/-- The calls that are to give a keypair its keys. -/
def Op.fills : Op → Bool
  | .generate _ _ | .fromHex _ _ | .fromPrivate _ _ => true
  | _ => false

/-- No call of the sequence fails on a keypair that already has keys. -/
def Careful (b : Build) (lax0x : Bool) (C : Curve) : Pair → List Op → Prop
  | _, [] => True
  | k, op :: ops =>
      (k.ready = true → (step b lax0x C k op).1 = .ok ()) ∧ Careful b lax0x C (step b lax0x C k op).2 ops

/-- What is assumed of the curve: a multiplication that commutes, negation, which keeps x and changes the
parity of y, and lifting an x coordinate to the point with even y. `pt a` is the public point of the
secret `a`, `ok` the secrets that are valid. -/
structure Laws (E : Points) (ok : Bytes → Prop) (pt : Bytes → E.Pt) (neg : E.Pt → E.Pt) : Prop where
  comm : ∀ a b, E.mul a (pt b) = E.mul b (pt a)
  mulNeg : ∀ a P, E.mul a (neg P) = neg (E.mul a P)
  x : ∀ P, E.x (neg P) = E.x P
  odd : ∀ a b, ok a → ok b → E.odd (neg (E.mul a (pt b))) = !E.odd (E.mul a (pt b))
  lift : ∀ a, ok a → E.lift (E.x (pt a)) = some (if E.odd (pt a) then neg (pt a) else pt a)

end Nostr.Keys.Spec
