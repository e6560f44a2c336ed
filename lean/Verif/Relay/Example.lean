import Verif.Relay.Model

/-! # The program examples/publish_note.c

It makes a note, signs it, sends it to three relays and says whether it has been published. The keys it has generated, the clock, the random
bytes and what the relays do are parameters. Memory allocation succeeds. -/

namespace Nostr.Relay.Example
open Nostr Nostr.Event Nostr.Json Nostr.Relay

/-- examples/publish_note.c:79-85: a call whose result is not looked at leaves the event as it was when it fails (for `nostr_event_add_tag`,
event.c:141-143). -/
def tagged (cfg : Option Config.Config) (e : Event) (values : List Bytes) : Event :=
  match addTag cfg e values with
  | .ok e' => e'
  | _ => e

/-- examples/publish_note.c:68-85: the note before it is signed; `key` is the generated public key, `now` the clock. -/
def draft (cfg : Option Config.Config) (key : Bytes) (now : Int) (text : Bytes) : Event :=
  tagged cfg (tagged cfg { zero with kind := 1, pubkey := key, createdAt := now, content := some text } [c!"t", c!"libnostr-c"])
    [c!"client", c!"libnostr-c-example"]

/-- examples/publish_note.c:87-99. -/
def signed (C : Crypto) (b : Build) (rand : Option Bytes) (sk : Bytes) (e : Event) : Res Event :=
  computeId C b e >>= fun e1 => sign C b rand sk e1

/-- One of the three relays of the program (lines 123-138); there may be any number here. A relay that could not be created is never counted or
ready. Simplified: an attempt that fails at once, after which line 131 uses freed memory, is left out (see C36). -/
structure Peer where
  /-- the connection stands when the relays are counted (line 144) -/
  counted : Bool
  /-- and when the note is sent (line 157) -/
  ready : Bool
  /-- the websocket accepts the text (relay.c:416) -/
  accepts : Bool
  /-- what arrives until the program looks for the last time (line 174), each chunk with the outcome of `realloc` -/
  chunks : List (Bool × Bytes)
  deriving DecidableEq, Repr

/-- relay.c:599-695 over the texts of one connection: the callbacks made. -/
def calls (P : Plat) (b : Build) (cfg : Option Config.Config) (r : Bytes → Json) : List Sub → List Bytes → List Call
  | _, [] => []
  | subs, t :: ts => (dispatch P b cfg r true subs t).2 ++ calls P b cfg r (dispatch P b cfg r true subs t).1 ts

/-- examples/publish_note.c:31-36 `message_callback`: does this call set the flag? -/
def sets : Call → Bool
  | .message type _ => decide (type = c!"OK")
  | .event _ _ => false

/-- examples/publish_note.c:13, 125: the flag after everything that has arrived. The three connections share it; it is only ever set, so their order
does not matter. The program subscribes to nothing. -/
def flag (P : Plat) (b : Build) (cfg : Option Config.Config) (r : Bytes → Json) : List Peer → Res Bool
  | [] => .ok false
  | p :: ps => receiveAll Rx.new p.chunks >>= fun q => flag P b cfg r ps >>= fun f =>
      .ok ((calls P b cfg r [] q.2).any sets || f)

/-- examples/publish_note.c:156-164: for every relay, the text given to the websocket and whether "Event sent" is printed; `none` where nothing
is tried. An event that cannot be written as JSON gives no text. -/
def sendAll (b : Build) (e : Event) : List Peer → Res (List (Option (Option Bytes × Bool)))
  | [] => .ok []
  | p :: ps =>
      if p.ready then
        match sendEvent b e with
        | .ub => .ub
        | .err _ => sendAll b e ps >>= fun l => .ok (some (none, false) :: l)
        | .ok t => sendAll b e ps >>= fun l => .ok (some (some t, p.accepts) :: l)
      else sendAll b e ps >>= fun l => .ok (none :: l)

/-- What the program prints after signing, and what it sends. -/
structure Screen where
  /-- "Created event ID" (lines 107, 177) -/
  id : Bytes
  /-- "Content" (line 108) -/
  content : Option Bytes
  /-- "Connected to" (line 149) -/
  connected : Nat
  /-- lines 156-164 -/
  sent : List (Option (Option Bytes × Bool))
  /-- "Your note has been published" or "No publication confirmation received" (lines 174-181); `none` is "No relay connections available"
  (line 152) -/
  published : Option Bool
  deriving DecidableEq, Repr

/-- examples/publish_note.c:101-198: the part after signing, with the exit status. -/
def talk (P : Plat) (b : Build) (cfg : Option Config.Config) (r : Bytes → Json) (e : Event) (ps : List Peer) : Res (Screen × Nat) :=
  if ps.countP Peer.counted = 0 then .ok (⟨Hex.hexEncode e.id, e.content, 0, [], none⟩, 0)
  else sendAll b e ps >>= fun l => flag P b cfg r ps >>= fun f =>
    .ok (⟨Hex.hexEncode e.id, e.content, ps.countP Peer.counted, l, some f⟩, 0)

/-- examples/publish_note.c:38-199 with the arguments after the program's name, once the library is ready and the keys are generated (lines 50-62):
what is shown (`none` where the program gives up first) and the exit status. -/
def program (C : Crypto) (P : Plat) (b : Build) (cfg : Option Config.Config) (r : Bytes → Json) (rand : Option Bytes) (sk key : Bytes)
    (now : Int) (ps : List Peer) : List Bytes → Res (Option Screen × Nat)
  | [] => .ok (none, 1)
  | text :: _ => match signed C b rand sk (draft cfg key now text) with
      | .ub => .ub
      | .err _ => .ok (none, 1)
      | .ok e => talk P b cfg r e ps >>= fun o => .ok (some o.1, o.2)

end Nostr.Relay.Example
