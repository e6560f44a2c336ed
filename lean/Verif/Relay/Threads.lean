import Verif.Basic

/-!
# The two threads of a relay connection (src/relay.c, threaded build)

A connection has a service thread (relay.c:90-109), which runs the websocket library and, from inside it, the protocol callback
(560-734) with the callbacks of the application; the application's own thread makes API calls meanwhile. Here each call and each
callback is the list of its accesses to shared memory, in order, with the operations on the mutex and on the thread between them; the
two threads take turns after every single access. Values are kept for what the control flow of the service thread depends on only
(`service_running`, `context`). A loop over the subscriptions counts as one access to the list. One connection at a time: connecting
again while a service thread exists is the subject of C36, disconnecting inside a callback of C166. The callback at the end of
`nostr_relay_connect` (relay.c:322-324) runs on the application's thread, so its calls are further calls. What `lws_context_destroy`
reports (relay.c:355) comes after the service thread has ended and is left out, as are the ways in which connecting fails before there
is a context. A memory access is atomic here; that it need not be is what a data race is.
-/

namespace Nostr.Relay.Threads
open Nostr

/-- What both threads can reach. -/
inductive Loc
  /-- relay->state -/
  | state
  /-- relay->ws_handle -/
  | handle
  /-- relay->message_callback and its argument -/
  | userCb
  /-- ctx->message_callback and its argument (relay.c:67-68) -/
  | ctxCb
  /-- ctx->context -/
  | ctxPtr
  /-- ctx->wsi -/
  | wsi
  /-- ctx->service_running -/
  | running
  /-- ctx->service_thread_created -/
  | created
  /-- ctx->subscriptions and its nodes -/
  | subs
  /-- ctx->receive_buffer, buffer_size, buffer_pos -/
  | rx
  /-- ctx->reconnect_enabled -/
  | reconnect
  /-- ctx->last_connect_attempt -/
  | attempt
  /-- the objects of the websocket library behind ctx->context and ctx->wsi -/
  | lws
  deriving DecidableEq, Repr

/-- One step of a thread. -/
inductive Ins
  | rd (l : Loc)
  | wr (l : Loc)
  /-- ctx->service_running = b -/
  | run (b : Bool)
  /-- ctx->context = NULL if `b` is false -/
  | ctxp (b : Bool)
  /-- pthread_mutex_lock / pthread_mutex_unlock of the queue mutex -/
  | lock
  | unlock
  /-- calloc and free of ctx -/
  | make
  | release
  /-- pthread_create, pthread_join -/
  | spawn
  | join
  deriving DecidableEq, Repr

/-- Calls that may be made from both threads. -/
inductive Use
  /-- one that returns because of the state, relay.c:381, 427, 509 -/
  | refused
  | send
  | subscribe
  | unsubscribe
  | setCallback
  deriving DecidableEq, Repr

/-- relay.c:415-417, 477-479, 550-552: the message is written under the mutex. -/
def write : List Ins := [.lock, .rd .wsi, .wr .lws, .unlock]

/-- relay.c:380-423 `nostr_relay_send_event`, 425-485 `nostr_subscribe`, 508-558 `nostr_relay_unsubscribe`, 491-506
`nostr_relay_set_message_callback`. -/
def Use.code : Use → List Ins
  | .refused => [.rd .state]
  | .send => [.rd .state, .rd .handle, .rd .wsi] ++ write
  | .subscribe => [.rd .state, .rd .handle, .rd .wsi, .rd .subs, .wr .subs] ++ write
  | .unsubscribe => [.rd .state, .rd .handle, .rd .wsi, .rd .subs, .wr .subs] ++ write
  | .setCallback => [.wr .userCb, .rd .handle, .wr .ctxCb]

/-- What a callback of the application does. -/
def user (us : List Use) : List Ins := us.flatMap Use.code

/-- The messages of a relay, relay.c:609-700, with what the application does in their callbacks. -/
inductive Msg
  | event (us : List Use)
  | closed (us : List Use)
  /-- OK, EOSE, NOTICE and unknown ones -/
  | other (us : List Use)
  deriving DecidableEq, Repr

/-- relay.c:609-700. -/
def Msg.code : Msg → List Ins
  | .event us => .rd .subs :: user us
  | .closed us => [.rd .subs, .wr .subs, .rd .ctxCb] ++ user us
  | .other us => .rd .ctxCb :: user us

/-- The calls of the protocol callback. -/
inductive Cb
  | established (us : List Use)
  | receive (ms : List Msg)
  | lost (us : List Use) (again : Option (List Use))
  | other
  deriving DecidableEq, Repr

/-- relay.c:560-734 `callback_nostr_relay`. -/
def Cb.code : Cb → List Ins
  | .established us => [.rd .handle, .wr .state] ++ user us
  | .receive ms => [.rd .handle, .rd .rx, .wr .rx] ++ ms.flatMap Msg.code ++ [.wr .rx]
  | .lost us again => [.rd .handle, .wr .state] ++ user us ++ [.rd .reconnect, .rd .attempt] ++
      (match again with | none => [] | some us => [.wr .attempt, .wr .state] ++ user us)
  | .other => [.rd .handle]

/-- relay.c:97-99: one `lws_service` with the callbacks it makes. -/
def service (cbs : List Cb) : List Ins := .wr .lws :: (cbs.flatMap Cb.code ++ [.wr .lws])

/-- relay.c:197-319 `nostr_relay_connect` up to the thread. -/
def prepare : List Ins :=
  [.rd .state, .wr .lws, .make, .ctxp true, .wr .reconnect, .wr .attempt, .wr .subs, .wr .rx, .rd .userCb, .wr .ctxCb, .wr .handle, .wr .state,
    .wr .lws, .wr .wsi, .run true, .wr .created]

/-- Calls of the application's thread. -/
inductive Call
  | use (u : Use)
  /-- the thread is created or not (relay.c:309-319) -/
  | connect (ok : Bool)
  | disconnect
  deriving DecidableEq, Repr

/-- relay.c:329-378 `nostr_relay_disconnect`; `nostr_relay_destroy` (186-195) of a connected relay is this and the release of the relay. -/
def hangUp : List Ins :=
  [.rd .handle, .wr .reconnect, .rd .ctxPtr, .ctxp false, .run false, .rd .created, .join, .wr .created, .rd .wsi, .rd .state, .wr .lws, .wr .subs,
    .wr .rx, .release, .wr .handle, .wr .state]

def Call.code : Call → List Ins
  | .use u => u.code
  | .connect true => prepare ++ [.spawn, .wr .created]
  | .connect false => prepare ++ [.run false, .wr .handle, .wr .lws, .release, .wr .state]
  | .disconnect => hangUp

/-- The service thread, relay.c:96-100: about to read `service_running`, about to read `context`, in `lws_service`, at its end. -/
inductive Svc
  | absent
  | head
  | mid
  | body (is : List Ins)
  | ended
  deriving DecidableEq, Repr

/-- The threads. -/
inductive Tid
  | app
  | svc
  deriving DecidableEq, Repr

structure St where
  /-- what is left of the application's call -/
  app : List Ins
  svc : Svc
  running : Bool
  context : Bool
  /-- who holds the mutex -/
  holder : Option Tid
  /-- ctx is allocated -/
  alive : Bool
  deriving DecidableEq, Repr

/-- What can happen next. -/
inductive Act
  /-- the application makes a call -/
  | call (c : Call)
  /-- its thread takes a step -/
  | app
  /-- the service thread takes a step; if it enters `lws_service`, these are the callbacks -/
  | svc (cbs : List Cb)
  deriving DecidableEq, Repr

/-- Before the first call. -/
def idle : St := ⟨[], .absent, false, false, none, false⟩

/-- May the call be made? Connecting needs that there is no connection; a call that uses the connection needs one. Without one there is
only one thread, and calls other than connecting are left out, except for those that are refused. -/
def Call.fits (s : St) : Call → Bool
  | .connect _ => s.svc = .absent ∧ s.alive = false
  | .use .refused => true
  | .use _ => s.alive
  | .disconnect => s.alive

/-- One step; `none` if it cannot happen. -/
def step (s : St) : Act → Option St
  | .call c => if s.app = [] ∧ c.fits s then some { s with app := c.code } else none
  | .app => match s.app with
    | [] => none
    | .rd _ :: r => some { s with app := r }
    | .wr _ :: r => some { s with app := r }
    | .run b :: r => some { s with app := r, running := b }
    | .ctxp b :: r => some { s with app := r, context := b }
    | .lock :: r => if s.holder = none then some { s with app := r, holder := some .app } else none
    | .unlock :: r => some { s with app := r, holder := none }
    | .make :: r => some { s with app := r, alive := true }
    | .release :: r => some { s with app := r, alive := false }
    | .spawn :: r => some { s with app := r, svc := .head }
    | .join :: r => if s.svc = .ended then some { s with app := r, svc := .absent } else none
  | .svc cbs => match s.svc with
    | .absent => none
    | .ended => none
    | .head => some { s with svc := if s.running then .mid else .ended }
    | .mid => some { s with svc := if s.context then .body (service cbs) else .ended }
    | .body [] => some { s with svc := .head }
    | .body (.lock :: r) => if s.holder = none then some { s with svc := .body r, holder := some .svc } else none
    | .body (.unlock :: r) => some { s with svc := .body r, holder := none }
    | .body (_ :: r) => some { s with svc := .body r }

/-- A run. -/
def steps : St → List Act → Option St
  | s, [] => some s
  | s, a :: as => (step s a).bind fun s => steps s as

end Nostr.Relay.Threads
