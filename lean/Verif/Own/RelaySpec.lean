import Verif.Own.Relay

/-!
# What the application of a relay sees when memory does not run out

No blocks here: the subscriptions are a list of ids and callbacks, a message is handled by the functions of
`Verif/Relay/Model.lean`. Callbacks may call the library again.
-/

namespace Nostr.Own.Relay.Spec
open Nostr Nostr.Event Nostr.Json Nostr.Own.Relay
open Nostr.Relay (Sub Call Rx)
open Nostr.Relay.Life (St)

/-- A connected relay: its subscriptions (latest first), its state, whether there is a message callback, the bytes that
wait for the rest of their message, and what the application has seen. -/
structure View where
  subs : List Sub
  state : St
  cb : Option Nat
  rx : Rx
  log : List Seen
  deriving Repr

def act (a : Act) (v : View) : View :=
  match a with
  | .subscribe id filters cb =>
      if v.state = .connected then
        match Nostr.Relay.subscribe v.subs id filters cb with
        | .ok r => { v with subs := r.1 }
        | _ => v
      else v
  | .unsubscribe id =>
      if v.state = .connected then
        match Nostr.Relay.unsubscribe v.subs id with
        | .ok r => { v with subs := r.1 }
        | _ => v
      else v
  | .setCallback cb => { v with cb := cb }
  | _ => v

/-- The application sees something and does what it wants. -/
def callback (app : List Seen → List Act) (s : Seen) (v : View) : View :=
  (app (v.log ++ [s])).foldl (fun v a => act a v) { v with log := v.log ++ [s] }

/-- A message: first the subscriptions change, then the callbacks are made. -/
def message (E : Env) (text : Bytes) (v : View) : View :=
  let r := Nostr.Relay.dispatch E.P (.cjson E.td E.fr) E.cfg E.r v.cb.isSome v.subs text
  r.2.foldl (fun v c => callback E.app (.call c) v) { v with subs := r.1 }

def op (E : Env) (o : Op) (v : View) : View :=
  match o with
  | .act a => act a v
  | .arrive chunk => match Nostr.Relay.receive true v.rx chunk with
      | .ok (rx, ts) => { ts.foldl (fun v t => message E t v) v with rx := rx }
      | _ => v
  | .established => callback E.app (.state .connected) { v with state := .connected }
  | .lost again =>
      let v := callback E.app (.state .disconnected) { v with state := .disconnected }
      if again then callback E.app (.state .connecting) { v with state := .connecting } else v

/-- A connection, unless the address is not one of a relay or the connection fails: at its end there are no subscriptions. -/
def session (E : Env) (url : Bytes) (s : Link × List Op) (v : View) : View :=
  if (Nostr.Relay.resolve true url).isOk ∧ s.1 = .up then
    s.2.foldl (fun v o => op E o v)
      (callback E.app (.state .connecting) { v with subs := [], state := .connecting, rx := Rx.new })
  else v

/-- All that the application sees. -/
def life (E : Env) (url : Bytes) (ss : List (Link × List Op)) : List Seen :=
  (ss.foldl (fun v s => session E url s v) ⟨[], .disconnected, none, Rx.new, []⟩).log

/-- The connections that are refused by the websocket library. -/
def refused (url : Bytes) (ss : List (Link × List Op)) : Nat :=
  if (Nostr.Relay.resolve true url).isOk then ss.countP (fun s => decide (s.1 = .refused)) else 0

/-- The application does not disconnect inside a callback, nor in the middle of a session. -/
def Stays (E : Env) (ss : List (Link × List Op)) : Prop :=
  (∀ log, .disconnect ∉ E.app log) ∧ ∀ s ∈ ss, Op.act .disconnect ∉ s.2

end Nostr.Own.Relay.Spec
