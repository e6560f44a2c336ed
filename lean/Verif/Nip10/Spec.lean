import Verif.Basic

/-! # Vocabulary of C52 (independent of the model) -/

namespace Nostr.Nip10.Spec
open Nostr

/-- An event reference: `["e", id, …]`. -/
def IsE (t : List Bytes) : Prop := ∃ id rest, t = c!"e" :: id :: rest

/-- An event reference carrying a marker: `["e", id, relay, marker, …]`. -/
def Marked (m : Bytes) (t : List Bytes) : Prop := ∃ id relay rest, t = c!"e" :: id :: relay :: m :: rest

/-- The fields are within the sizes of the library's buffers, and the caller's buffers are large enough:
65 bytes for the id, the hint plus terminator for the relay. -/
def Fits (id relay : Bytes) (idSize relaySize : Nat) : Prop :=
  id.length ≤ 64 ∧ relay.length ≤ 255 ∧ 65 ≤ idSize ∧ relay.length < relaySize

instance (id relay : Bytes) (n r : Nat) : Decidable (Fits id relay n r) := by unfold Fits; infer_instance

/-- The relay hint of a reference (empty when absent). -/
def hint : List Bytes → Bytes
  | _ :: _ :: relay :: _ => relay
  | _ => []

end Nostr.Nip10.Spec
