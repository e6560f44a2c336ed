import Verif.Basic

/-!
# What a call leaves behind in memory

The models in this directory follow the local buffers and the temporary blocks of the functions that handle secrets,
and record what these hold when they cease to exist: at the return of the function, or at `free`. What the
cryptographic libraries leave on their own stack, registers and copies made by the compiler are not modelled. A
library function that fails leaves its output buffer as it was.
-/

namespace Nostr.Wipe
open Nostr

/-- `memcpy(b + off, d, …)`: the data in the buffer. -/
def over (off : Nat) (d b : Bytes) : Bytes := b.take off ++ d ++ b.drop (off + d.length)

/-- src/utils.c:26-46 `secure_wipe(b, n)`. -/
def wipe (n : Nat) (b : Bytes) : Bytes := over 0 (List.replicate n 0) b

/-- A call: what its caller sees, and what is left in memory that is no longer in use. -/
structure Run (V : Type) where
  view : V
  left : List Bytes

theorem over_all {d b : Bytes} (h : d.length = b.length) : over 0 d b = d := by
  simp [over, h]

theorem over_length {off : Nat} {d b : Bytes} (h : off + d.length ≤ b.length) : (over off d b).length = b.length := by
  simp only [over, List.length_append, List.length_take, List.length_drop]; omega

theorem wipe_all {n : Nat} {b : Bytes} (h : n = b.length) : wipe n b = List.replicate b.length 0 := by
  rw [wipe, over_all (by simpa using h), h]

/-- Wiping what was written. -/
theorem wipe_over {n off : Nat} {d b : Bytes} (hd : off + d.length ≤ b.length) (h : n = b.length) :
    wipe n (over off d b) = List.replicate b.length 0 := by
  have := over_length hd
  rw [wipe_all (by omega), this]

end Nostr.Wipe
