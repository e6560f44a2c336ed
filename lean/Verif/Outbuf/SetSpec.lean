import Verif.Outbuf.Spec

/-! # Vocabulary of C208 (independent of the model) -/

namespace Nostr.Outbuf.Spec
open Nostr

/-- Two buffers of the same size that the caller reads as the same text. -/
def Alike (a b : Option Bytes) : Prop := SameRoom a b ∧ ∃ text, Reads a text ∧ Reads b text

/-- The outputs of a call are set by it: however the caller's variables were before, as long as the same ones are given with
the same sizes (`same`), the call answers the same, and if it reports success the caller sees the same in them (`seen`). -/
def Sets {α : Type} (same seen : α → α → Prop) (call : α → Res (Option Err × α)) : Prop :=
  ∀ a b, same a b → ∃ code a' b', call a = .ok (code, a') ∧ call b = .ok (code, b') ∧ (code = none → seen a' b')

end Nostr.Outbuf.Spec
