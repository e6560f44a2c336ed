import Verif.Relay.Model

/-! # The program examples/subscribe_events.c

It subscribes to events and prints what arrives. The calendar (`localtime` and `strftime`) is a parameter: the time of day of a time stamp, `none` where
`localtime` returns NULL, as it does when the year does not fit an `int`. -/

namespace Nostr.Relay.Watch
open Nostr Nostr.Event Nostr.Json Nostr.Relay

/-- What is printed for one event (lines 63-82). -/
structure Line where
  time : Bytes
  kind : Nat
  who : Bytes
  text : Bytes
  /-- the names of the first tags -/
  tags : List Bytes
  /-- "(+n more)"; 0 where it is not printed -/
  more : Nat
  deriving DecidableEq, Repr

/-- What the callbacks print. -/
inductive Out
  | event (l : Line)
  | eose
  | notice (data : Bytes)
  deriving DecidableEq, Repr

/-- examples/subscribe_events.c:46-85 `event_callback`; `strftime` with NULL for the time is undefined (line 52). -/
def show1 (cal : Int → Option Bytes) (e : Event) : Res Line :=
  match cal e.createdAt with
  | none => .ub
  | some hms =>
      let text := e.content.getD (c!"(no content)")
      .ok ⟨hms, e.kind, (Hex.hexEncode e.pubkey).take 12, if text.length > 80 then text.take 77 ++ c!"..." else text,
        (e.tags.take 3).filterMap List.head?, e.tags.length - 3⟩

/-- examples/subscribe_events.c:38-44 `message_callback`, and the event callback. -/
def tell (cal : Int → Option Bytes) : Call → Res (List Out)
  | .event _ e => show1 cal e >>= fun l => .ok [.event l]
  | .message type data =>
      if type = c!"EOSE" then .ok [.eose] else if type = c!"NOTICE" then .ok [.notice data] else .ok []

/-- The callbacks made for one text (relay.c:603-689), in order. -/
def tellAll (cal : Int → Option Bytes) : List Call → Res (List Out)
  | [] => .ok []
  | c :: cs => tell cal c >>= fun a => tellAll cal cs >>= fun b => .ok (a ++ b)

end Nostr.Relay.Watch
