import Verif.Basic

/-! # Vocabulary of the bech32 properties (independent of the model) -/

namespace Nostr.Bech32

/-- Number of positions in which two lists differ. -/
def hamming {α : Type} [DecidableEq α] : List α → List α → Nat
  | x :: xs, y :: ys => (if x = y then 0 else 1) + hamming xs ys
  | _, _ => 0

end Nostr.Bech32
