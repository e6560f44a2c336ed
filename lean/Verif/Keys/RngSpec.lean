import Verif.Keys.Rng

/-! # Specification: random bytes from several threads (C194) -/

namespace Nostr.Keys.Rng.Spec
open Nostr Nostr.Keys.Rng

/-- The numbers of the generator's answers in a list of parts. -/
def numbers (l : List Part) : List Nat := l.map (·.1)

/-- All numbers that were delivered to callers. -/
def delivered (log : List (Nat × List Part)) : List Nat := log.flatMap fun r => numbers r.2

/-- What an answer to a request for `n` bytes must be: parts of at most `max` bytes, `n` together. -/
def Fills (max n : Nat) (got : List Part) : Prop :=
  (got.map (·.2)).sum = n ∧ ∀ p ∈ got, 0 < p.2 ∧ p.2 ≤ max

end Nostr.Keys.Rng.Spec
