import Verif.Alias.Model

/-! # What it means that a result may lie over its argument (C195) -/

namespace Nostr.Alias.Spec
open Nostr

/-- The text `s` stands at the address `p`, with its terminator. -/
def Holds (m : Mem) (p : Nat) (s : Bytes) : Prop :=
  (∀ c ∈ s, c ≠ 0) ∧ ∃ before after, m = before ++ (s ++ [0]) ++ after ∧ before.length = p

/-- The bytes `bs` stand at the address `p`. -/
def At (m : Mem) (p : Nat) (bs : Bytes) : Prop := ∃ before after, m = before ++ bs ++ after ∧ before.length = p

/-- `m'` is `m` with the bytes `bs` at the address `q` in place of what was there, and nothing else changed. -/
def Replaced (m : Mem) (q : Nat) (bs : Bytes) (m' : Mem) : Prop :=
  ∃ before old after, m = before ++ old ++ after ∧ m' = before ++ bs ++ after ∧ old.length = bs.length ∧ before.length = q

/-- Where the result may lie: at the argument (or up to one byte after its start, or before it), or behind its end. -/
def Fits (p n q : Nat) : Prop := q ≤ p + 1 ∨ p + n < q

end Nostr.Alias.Spec
