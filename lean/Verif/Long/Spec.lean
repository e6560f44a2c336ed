import Verif.Num

/-! # Vocabulary for the width of `long` -/

namespace Nostr.Long.Spec
open Nostr

/-- Linux and macOS on 64-bit machines. -/
def wide : Nat := 64

/-- Windows and the ESP32. -/
def narrow : Nat := 32

/-- If the text begins with a whole number (after white space, with or without sign), that number is at least `lo` and at most
`hi`. -/
def Within (lo hi : Int) (t : Bytes) : Prop :=
  ∀ neg m rest, Num.scanDec t = some (neg, m, rest) → lo ≤ (if neg then -(m : Int) else m) ∧ (if neg then -(m : Int) else m) ≤ hi

end Nostr.Long.Spec
