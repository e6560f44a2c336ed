import Verif.Relay.Spec
import Verif.Relay.Props

/-!
# From an author to a subscriber

The library has both ends of the protocol: what a client sends (src/relay.c) and what a relay reads and answers
(src/relay_message.c, src/relay_filter.c). The relay below is an application, not part of the library: it calls the library's functions in
the order their documentation suggests. The properties say what the library's two ends guarantee together.
-/

namespace Nostr.Journey.Spec
open Nostr Nostr.Event Nostr.Json Nostr.Filter Nostr.Msg

/-- The cJSON build and the platform that runs it. -/
structure Host where
  P : Plat
  td : Int → Int
  fr : Int → Bytes
  r : Bytes → Json
  cfg : Option Config.Config

/-- Its build. -/
def Host.b (h : Host) : Build := .cjson h.td h.fr

/-- The host's limits admit the event. -/
def Host.Admits (h : Host) (e : Event) : Prop := ∀ c ∈ h.cfg, e.tags.length ≤ c.maxTags ∧ e.text.length ≤ c.maxContent

/-- What an application does to hand an event to a subscription with a buffer of `k` bytes: `nostr_relay_msg_event`
and `nostr_relay_msg_serialize`; the text, if there is one. -/
def message (h : Host) (k : Nat) (id : Bytes) (e : Event) : Option Bytes :=
  match serialize h.td h.fr h.r (mkEvent (some id) (some e)) k with
  | ⟨.ok (), w, some n⟩ => some (w.take n)
  | _ => none

/-- A relay that has the subscriptions `open_` (id and filters) and receives a text: if `nostr_client_msg_parse` reads an event and
`nostr_event_verify` accepts it, the event is handed to every subscription of which `nostr_filters_match` says that it matches.
Result: the texts sent, each with the id of the subscription. -/
def forward (C : Crypto) (h : Host) (k : Nat) (open_ : List (Bytes × List Filter)) (t : Bytes) : List (Bytes × Bytes) :=
  match clientParse h.P h.b h.r h.cfg t 0 with
  | .ok (.event e) =>
      if verify C h.b e = .ok () then
        (open_.filter fun s => filtersMatch s.2 e).filterMap fun s => (message h k s.1 e).map fun m => (s.1, m)
      else []
  | _ => []

/-- The callbacks a client makes when it has done and received `past` (latest first) and then receives the text in the chunks `cs`: the
chunks are put together to messages and each message is looked at. `none` if the receive buffer fails. -/
def arrive (h : Host) (hasCb : Bool) (past : List Relay.Spec.Op) (cs : List Bytes) : Option (List Relay.Call) :=
  match Relay.receiveAll Relay.Rx.new (cs.map fun c => (true, c)) with
  | .ok (_, ms) => some (ms.foldl (fun s m =>
      ((Relay.Props.step h.P h.b h.cfg h.r hasCb s.1 (.text m)).1, s.2 ++ (Relay.Props.step h.P h.b h.cfg h.r hasCb s.1 (.text m)).2))
      (Relay.Props.subsAfter h.P h.b h.cfg h.r hasCb past, ([] : List Relay.Call))).2
  | _ => none

/-- The event as it is read back: a missing content has become the empty one. -/
def delivered (e : Event) : Event := { e with content := some e.text }

end Nostr.Journey.Spec
