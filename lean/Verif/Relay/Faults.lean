import Verif.Relay.Model
import Verif.RelayProto.Model

/-! # The relay client when memory or the network fails, and where it connects to (src/relay.c) -/

namespace Nostr.Relay
open Nostr Nostr.Event Nostr.Json

/-! ## The address of a relay -/

/-- What is handed to the websocket library: relay.c:220-252. -/
structure Target where
  tls : Bool
  port : Nat
  address : Bytes
  path : Bytes
  deriving DecidableEq, Repr

/-- relay.c:240-249: the address ends at the first slash, which is dropped; the path is what follows it. -/
def target (tls : Bool) (port : Nat) (s : Bytes) : Target :=
  match RelayProto.strchr 0x2f s with
  | some (a, p) => ⟨tls, port, a, p⟩
  | none => ⟨tls, port, s, c!"/"⟩

/-- relay.c:221-249 in `nostr_relay_connect`. `copied`: the `strdup` of line 226 succeeded; its result is not tested
before `strncmp` reads it. -/
def resolve (copied : Bool) (url : Bytes) : Res Target :=
  if !copied then .ub
  else if url.take 6 = c!"wss://" then .ok (target true 443 (url.drop 6))
  else if url.take 5 = c!"ws://" then .ok (target false 80 (url.drop 5))
  else .err .invalidParam

/-! ## Subscriptions when something fails -/

/-- What fails in a call: nothing, one of its allocations, or the write. -/
inductive Fault
  | no
  /-- `malloc(sizeof(subscription_t))`, relay.c:442 -/
  | sub
  /-- `strdup(subscription_id)`, relay.c:456 -/
  | id
  /-- `malloc` of the text, relay.c:462 and 534 -/
  | msg
  /-- `malloc` of the frame, relay.c:470 and 542 -/
  | buf
  /-- `lws_write`, relay.c:479 and 551 -/
  | write
  deriving DecidableEq, Repr

/-- A subscription whose id may be NULL: relay.c:53-58. -/
structure NSub where
  id : Option Bytes
  cb : Option Nat
  deriving DecidableEq, Repr

/-- What a call returns (`none`: NOSTR_OK), the subscriptions afterwards and the text that was written. -/
structure Done where
  status : Option Err
  subs : List NSub
  sent : Option Bytes
  deriving DecidableEq, Repr

/-- relay.c:462-485 and 534-557: build the text, copy it into a frame and write it. -/
def transmit (f : Fault) (subs : List NSub) (text : Res Bytes) : Res Done :=
  if f = .msg then .ok ⟨some .memory, subs, none⟩
  else text >>= fun t =>
    if f = .buf then .ok ⟨some .memory, subs, none⟩
    else if f = .write then .ok ⟨some .connection, subs, none⟩
    else .ok ⟨none, subs, some t⟩

/-- relay.c:426-485 `nostr_subscribe` on a connected relay. -/
def subscribeF (f : Fault) (subs : List NSub) (id filters : Bytes) (cb : Option Nat) : Res Done :=
  if !validSubId id then .ok ⟨some .invalidParam, subs, none⟩
  else if f = .sub then .ok ⟨some .memory, subs, none⟩
  else match parse filters with
    | none => .ok ⟨some .invalidParam, subs, none⟩
    | some _ => transmit f (⟨if f = .id then none else some id, cb⟩ :: subs) (reqText id filters)

/-- relay.c:521-532 and 653-663: unlink the first subscription with this id; `strcmp` with NULL is undefined. -/
def removeF (id : Bytes) : List NSub → Res (List NSub)
  | [] => .ok []
  | s :: ss => match s.id with
      | none => .ub
      | some i => if i = id then .ok ss else removeF id ss >>= fun r => .ok (s :: r)

/-- relay.c:615-632: find the first subscription with this id. -/
def findF (id : Bytes) : List NSub → Res (Option NSub)
  | [] => .ok none
  | s :: ss => match s.id with
      | none => .ub
      | some i => if i = id then .ok (some s) else findF id ss

/-- relay.c:508-558 `nostr_relay_unsubscribe` on a connected relay. -/
def unsubscribeF (f : Fault) (subs : List NSub) (id : Bytes) : Res Done :=
  if !validSubId id then .ok ⟨some .invalidParam, subs, none⟩
  else removeF id subs >>= fun r => transmit f r (closeText id)

/-- relay.c:603-689: one message text, with subscriptions whose id may be NULL. -/
def dispatchF (P : Plat) (b : Build) (cfg : Option Config.Config) (r : Bytes → Json) (hasCb : Bool) (subs : List NSub)
    (text : Bytes) : Res (List NSub × List Call) :=
  match parse text with
  | some (.arr (.str t :: j1 :: js)) =>
      if t = c!"EVENT" ∧ js ≠ [] then
        match j1, js with
        | .str id, ev :: _ => findF id subs >>= fun s =>
            match s with
            | none => .ok (subs, [])
            | some s => match fromJson P b cfg (print true 0 (mapNum r ev)) with
                | .ok e => match s.cb with
                    | some k => .ok (subs, [.event k e])
                    | none => .ok (subs, [])
                | _ => .ok (subs, [])
        | _, _ => .ok (subs, [])
      else if t = c!"CLOSED" ∧ js ≠ [] then
        match j1 with
        | .str id => removeF id subs >>= fun l => .ok (l, notify hasCb r t (.arr (.str t :: j1 :: js)))
        | _ => .ok (subs, notify hasCb r t (.arr (.str t :: j1 :: js)))
      else .ok (subs, notify hasCb r t (.arr (.str t :: j1 :: js)))
  | _ => .ok (subs, [])

end Nostr.Relay
