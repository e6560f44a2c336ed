import Verif.Event.Model
import Verif.Json.Reprint

/-!
# Model of the relay client (src/relay.c)

Receiving, dispatching and the texts sent. The websocket library is not modelled; a received chunk is a
list of bytes. The object lifecycle is in `Verif/Relay/Life.lean`.
-/

namespace Nostr.Relay
open Nostr Nostr.Event Nostr.Json

/-! ## Framing -/

/-- relay.c:33-49: the scanning loop of `find_json_array_end`; the result is what follows the closing
bracket. The `int` depth cannot overflow in a buffer of 10 MB. -/
def scan : Nat → Bool → Bytes → Option Bytes
  | _, _, [] => none
  | k, true, 0x5c :: _ :: s => scan k true s
  | k, true, c :: s => if c = 0x22 then scan k false s else scan k true s
  | k, false, c :: s =>
      if c = 0x22 then scan k true s
      else if c = 0x5b ∨ c = 0x7b then scan (k + 1) false s
      else if c = 0x5d ∨ c = 0x7d then if k - 1 = 0 then some s else scan (k - 1) false s
      else scan k false s

/-- relay.c:26-51 `find_json_array_end`, and line 599: the complete array at the start of the text and what
follows it. -/
def frame (s : Bytes) : Option (Bytes × Bytes) :=
  if s.head? = some 0x5b then (scan 0 false s).map fun rest => (s.take (s.length - rest.length), rest) else none

/-- relay.c:597 and 694: the blanks that are skipped between messages. -/
def isBlank (c : UInt8) : Bool := decide (c = 0x0a) || decide (c = 0x0d) || decide (c = 0x20)

/-- relay.c:597, 694. -/
def skipBlank (s : Bytes) : Bytes := s.dropWhile isBlank

/-- relay.c:599-695: the loop over complete messages, positioned after blanks. `total` is the length of the
text in the buffer and `size` the size of the buffer: line 601 writes NUL behind the message. The fuel only
serves termination. -/
def drainLoop (size total : Nat) : Nat → Bytes → Res (List Bytes × Bytes)
  | 0, s => .ok ([], s)
  | f + 1, s => match frame s with
      | none => .ok ([], s)
      | some (m, rest) =>
          if total - rest.length ≥ size then .ub
          else drainLoop size total f (skipBlank rest) >>= fun r => .ok (m :: r.1, r.2)

/-- The receive buffer: the bytes before `buffer_pos`, and `buffer_size`. -/
structure Rx where
  buf : Bytes
  size : Nat
  deriving DecidableEq, Repr

/-- relay.c:577: `max_buffer_size`. -/
def maxBuffer : Nat := 10485760

/-- relay.c:590-704: the chunk is appended, complete messages are taken out, the rest moves to the front. -/
def absorb (st : Rx) (chunk : Bytes) : Res (Rx × List Bytes) :=
  let b := st.buf ++ chunk
  if b.length ≥ st.size then .ub
  else
    let text := b.takeWhile (· != 0)
    drainLoop st.size text.length (text.length + 1) (skipBlank text) >>= fun r => .ok (⟨r.2, st.size⟩, r.1)

/-- relay.c:575-706: receiving a chunk; `grows` tells whether `realloc` succeeds. The result is the new
buffer and the message texts handed on. -/
def receive (grows : Bool) (st : Rx) (chunk : Bytes) : Res (Rx × List Bytes) :=
  if chunk.length = 0 then .ok (st, [])
  else if st.buf.length + chunk.length ≥ st.size then
    if st.buf.length + chunk.length + 1024 > maxBuffer then .ok (⟨[], st.size⟩, [])
    else if !grows then .ok (st, [])
    else absorb ⟨st.buf, st.buf.length + chunk.length + 1024⟩ chunk
  else absorb st chunk

/-- relay.c:264-267: a new connection has no buffer. -/
def Rx.new : Rx := ⟨[], 0⟩

/-- Receiving chunk after chunk; each comes with the outcome of `realloc`. -/
def receiveAll : Rx → List (Bool × Bytes) → Res (Rx × List Bytes)
  | st, [] => .ok (st, [])
  | st, (g, c) :: cs =>
      receive g st c >>= fun r => receiveAll r.1 cs >>= fun q => .ok (q.1, r.2 ++ q.2)

/-! ## Dispatch -/

/-- A subscription: relay.c:53-58. `cb` names the callback with its user data, `none` is NULL. -/
structure Sub where
  id : Bytes
  cb : Option Nat
  deriving DecidableEq, Repr

/-- What the application sees. -/
inductive Call
  /-- an event callback -/
  | event (cb : Nat) (e : Event)
  /-- the message callback -/
  | message (type text : Bytes)
  deriving DecidableEq, Repr

/-- relay.c:653-663 (and 522-532): unlink the first subscription with this id. -/
def removeSub (id : Bytes) : List Sub → List Sub
  | [] => []
  | s :: ss => if s.id = id then ss else s :: removeSub id ss

/-- relay.c:615-632: the first subscription with this id receives the event. -/
def deliver (P : Plat) (b : Build) (cfg : Option Config.Config) (r : Bytes → Json) (subs : List Sub) (id : Bytes)
    (ev : Json) : List Call :=
  match subs.find? (fun s => decide (s.id = id)) with
  | none => []
  | some s => match fromJson P b cfg (print true 0 (mapNum r ev)) with
      | .ok e => match s.cb with
          | some k => [.event k e]
          | none => []
      | _ => []

/-- relay.c:635-641: the message callback with the printed array. -/
def notify (hasCb : Bool) (r : Bytes → Json) (type : Bytes) (root : Json) : List Call :=
  if hasCb then [.message type (print true 0 (mapNum r root))] else []

/-- relay.c:603-689: one message text. Result: the subscriptions afterwards and the callbacks made. -/
def dispatch (P : Plat) (b : Build) (cfg : Option Config.Config) (r : Bytes → Json) (hasCb : Bool) (subs : List Sub)
    (text : Bytes) : List Sub × List Call :=
  match parse text with
  | some (.arr (.str t :: j1 :: js)) =>
      if t = c!"EVENT" ∧ js ≠ [] then
        match j1, js with
        | .str id, ev :: _ => (subs, deliver P b cfg r subs id ev)
        | _, _ => (subs, [])
      else if t = c!"CLOSED" ∧ js ≠ [] then
        (match j1 with | .str id => removeSub id subs | _ => subs,
          notify hasCb r t (.arr (.str t :: j1 :: js)))
      else (subs, notify hasCb r t (.arr (.str t :: j1 :: js)))
  | _ => (subs, [])

/-! ## Sending -/

/-- relay.c:15-24 `validate_subscription_id`. -/
def validSubId (s : Bytes) : Bool :=
  !(decide (s.length = 0) || decide (s.length > 256)) &&
    s.all fun c => !(decide (c = 0x22) || decide (c = 0x5c) || decide (c < 0x20))

/-- relay.c:461-466: the text of a subscription request, written into a block of
`strlen(id) + strlen(filters) + 20` bytes. -/
def reqText (id filters : Bytes) : Res Bytes :=
  let t := c!"[\"REQ\",\"" ++ id ++ c!"\"," ++ filters ++ c!"]"
  if t.length + 1 > id.length + filters.length + 20 then .ub else .ok t

/-- relay.c:534-539: the text that ends a subscription. -/
def closeText (id : Bytes) : Res Bytes :=
  let t := c!"[\"CLOSE\",\"" ++ id ++ c!"\"]"
  if t.length + 1 > id.length + 20 then .ub else .ok t

/-- relay.c:397-403: the text that publishes an event. -/
def eventText (json : Bytes) : Res Bytes :=
  let t := c!"[\"EVENT\"," ++ json ++ c!"]"
  if t.length + 1 > json.length + 20 then .ub else .ok t

/-- relay.c:426-485 `nostr_subscribe` on a connected relay when allocation succeeds: error code or the new
subscriptions and the text handed to the websocket. -/
def subscribe (subs : List Sub) (id filters : Bytes) (cb : Option Nat) : Res (List Sub × Bytes) :=
  if !validSubId id then .err .invalidParam
  else match parse filters with
    | none => .err .invalidParam
    | some _ => reqText id filters >>= fun t => .ok (⟨id, cb⟩ :: subs, t)

/-- relay.c:508-558 `nostr_relay_unsubscribe` on a connected relay when allocation succeeds. -/
def unsubscribe (subs : List Sub) (id : Bytes) : Res (List Sub × Bytes) :=
  if !validSubId id then .err .invalidParam
  else closeText id >>= fun t => .ok (removeSub id subs, t)

/-- relay.c:380-423 `nostr_relay_send_event` on a connected relay when allocation succeeds: the text handed to
the websocket. -/
def sendEvent (b : Build) (e : Event) : Res Bytes := toJson b e >>= eventText

end Nostr.Relay
