import Verif.Relay.Model

/-! # Vocabulary for the relay client -/

namespace Nostr.Relay.Spec
open Nostr Nostr.Event Nostr.Json Nostr.Relay

/-- The text is a JSON array: the parser reads it as an array and nothing is left over. -/
def ArrayText (m : Bytes) : Prop := CStr m ∧ ∃ l, parseValue (2 * m.length + 2) 0 m = some (.arr l, [])

/-- Line feeds, carriage returns and spaces. -/
def Blanks (s : Bytes) : Prop := ∀ c ∈ s, c = 0x0a ∨ c = 0x0d ∨ c = 0x20

/-- A byte stream made of JSON arrays with blanks around them. -/
inductive Stream : List Bytes → Bytes → Prop
  | nil {bl} : Blanks bl → Stream [] bl
  | cons {bl m ms s} : Blanks bl → ArrayText m → Stream ms s → Stream (m :: ms) (bl ++ m ++ s)

/-- What the application and the relay do. -/
inductive Op
  | subscribe (id : Bytes) (cb : Option Nat)
  | unsubscribe (id : Bytes)
  /-- a message text arrives -/
  | text (t : Bytes)

/-- The message says that the relay has closed the subscription. -/
def closes (t : Bytes) : Option Bytes :=
  match parse t with
  | some (.arr (.str type :: .str id :: _ :: _)) => if type = c!"CLOSED" then some id else none
  | _ => none

/-- The callbacks of the subscriptions with this id, latest first; ending a subscription ends the latest. -/
def stack (id : Bytes) : List Op → List (Option Nat)
  | [] => []
  | .subscribe i cb :: past => if i = id then cb :: stack id past else stack id past
  | .unsubscribe i :: past => if i = id then (stack id past).tail else stack id past
  | .text t :: past => if closes t = some id then (stack id past).tail else stack id past

end Nostr.Relay.Spec
