import Verif.Event.Model
import Verif.Event.Spec

/-! # Zaps: what is meant (BOLT-11 amounts, tags) -/

namespace Nostr.Zap.Spec
open Nostr Nostr.Event

/-- `v` is the value of the last tag called `name` (with a value). -/
def LastTag (e : Event) (name v : Bytes) : Prop :=
  ∃ before rest after, e.tags = before ++ (name :: v :: rest) :: after ∧ ∀ t ∈ after, ∀ w r, t ≠ name :: w :: r

/-- `v` is the value of the first tag called `name` (with a value). -/
def FirstTag (e : Event) (name v : Bytes) : Prop :=
  ∃ before rest after, e.tags = before ++ (name :: v :: rest) :: after ∧ ∀ t ∈ before, ∀ w r, t ≠ name :: w :: r

/-- BOLT-11 multipliers. -/
inductive Unit' | milli | micro | nano | pico
deriving DecidableEq

def Unit'.letter : Unit' → UInt8
  | .milli => 0x6d
  | .micro => 0x75
  | .nano => 0x6e
  | .pico => 0x70

/-- The multiplier in tenths of a millisatoshi (a bitcoin is 10¹² of these). -/
def Unit'.tenths : Unit' → Nat
  | .milli => 10 ^ 9
  | .micro => 10 ^ 6
  | .nano => 10 ^ 3
  | .pico => 1

/-- `b` is a main-net invoice text over `msat` millisatoshi: `lnbc`, the amount, the multiplier letter if
any, the separator `1`, the data. -/
def Invoice (b : Bytes) (msat : Nat) : Prop :=
  ∃ n data, (∃ u : Unit', b = c!"lnbc" ++ Num.decNat n ++ [u.letter] ++ c!"1" ++ data ∧ n * u.tenths = msat * 10) ∨
    (b = c!"lnbc" ++ Num.decNat n ++ c!"1" ++ data ∧ n * 10 ^ 12 = msat * 10)

/-- The same with a multiplier letter. -/
def UnitInvoice (b : Bytes) (msat : Nat) : Prop :=
  ∃ n data u, b = c!"lnbc" ++ Num.decNat n ++ [Unit'.letter u] ++ c!"1" ++ data ∧ n * u.tenths = msat * 10

end Nostr.Zap.Spec
