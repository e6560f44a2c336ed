import Verif.Relay.Life

/-!
# What a relay says about its connection (src/relay.c)

The state of a relay object, the reports to the state callback, and beside them what the connection really is. The websocket library is
represented by what it may do: an attempt that was begun succeeds or fails, a connection that is up ends, and the library calls back for it.
The application calls from one thread and outside callbacks (calls inside callbacks are in `Verif/Own/Relay.lean`, data races in
`Verif/Relay/Threads.lean`); the service thread's callbacks come in between, also while `nostr_relay_connect` has not returned yet.
-/

namespace Nostr.Relay.State
open Nostr Nostr.Relay.Life

/-- What the connection is for the websocket library: nothing, an attempt, or up; with the time `nostr_relay_connect` was called. -/
inductive Link
  | none
  | trying (since : Int)
  | up (since : Int)
  deriving DecidableEq, Repr

/-- Build and websocket library. -/
structure Lib where
  /-- `NOSTR_FEATURE_THREADING`: there is a service thread (relay.c:294-320), the only caller of `lws_service` (relay.c:99) -/
  threading : Bool
  /-- the end of a client's connection is reported with `LWS_CALLBACK_CLOSED`; otherwise with another reason, which relay.c:729-730 ignores
  (libwebsockets has `LWS_CALLBACK_CLIENT_CLOSED` for clients) -/
  closed : Bool

/-- `relay->ws_handle`: NULL, the connection's context, or a context that was freed (relay.c:284). -/
inductive Handle
  | null | live | freed
  deriving DecidableEq, Repr

/-- The relay object with its context, the reports so far (latest first), and the connection itself. -/
structure World where
  /-- `relay->state` -/
  st : St
  handle : Handle
  /-- `ctx->reconnect_enabled` -/
  enabled : Bool
  /-- `ctx->last_connect_attempt` -/
  last : Int
  /-- `nostr_relay_connect` has begun the attempt and not yet called the callback (relay.c:322-324) -/
  owing : Bool
  told : List St
  link : Link
  deriving DecidableEq, Repr

/-- relay.c:161-184 `nostr_relay_create`. -/
def created : World := ⟨.disconnected, .null, false, 0, false, [], .none⟩

/-- What happens, with the time (`time(NULL)`) where it matters. -/
inductive Op
  /-- `nostr_relay_connect` up to line 321 -/
  | connect (o : Outcome) (now : Int)
  /-- the rest of it -/
  | report
  /-- the websocket library, from the service thread -/
  | established
  | refused (now : Int)
  | ended (now : Int)
  /-- `nostr_relay_disconnect`; `told`: the websocket library calls back for the connection while its context is destroyed (relay.c:358) -/
  | disconnect (told : Bool)
  /-- `nostr_relay_send_event`, `nostr_subscribe`, `nostr_relay_unsubscribe` -/
  | send
  deriving DecidableEq, Repr

/-- What can happen: the service thread calls back only for what the connection is, and only if there is such a thread; the application is
in one call at a time. -/
def can (L : Lib) (w : World) : Op → Prop
  | .connect o _ => w.owing = false ∧ (o = .thread → L.threading = true)
  | .report => w.owing = true
  | .established => L.threading = true ∧ ∃ s, w.link = .trying s
  | .refused _ => L.threading = true ∧ ∃ s, w.link = .trying s
  | .ended _ => L.threading = true ∧ ∃ s, w.link = .up s
  | .disconnect told => w.owing = false ∧ (told = true → (∃ s, w.link = .trying s) ∨ L.closed = true ∧ ∃ s, w.link = .up s)
  | .send => w.owing = false

/-- `relay->state = s` and the report of it. -/
def say (s : St) (w : World) : World := { w with st := s, told := s :: w.told }

/-- relay.c:708-727: `LWS_CALLBACK_CLIENT_CONNECTION_ERROR` and `LWS_CALLBACK_CLOSED`. -/
def lost (now : Int) (w : World) : World :=
  if w.enabled = true ∧ now - w.last ≥ 5 then say .connecting { say .disconnected w with last := now } else say .disconnected w

/-- relay.c:562-563, 566-573, 710-711: the callbacks look at `relay->ws_handle`. -/
def called (w : World) (f : World → World) : Res (Option Err × World) :=
  match w.handle with
  | .null => .ok (none, w)
  | .live => .ok (none, f w)
  | .freed => .ub

/-- relay.c:197-321; `none` stands for `NOSTR_OK`. The code of early failures is simplified (C130). -/
def connect (o : Outcome) (now : Int) (w : World) : Res (Option Err × World) :=
  if w.st = .connected ∨ w.st = .connecting then .ok (some .connection, w)
  else match o with
    | .early => .ok (some .connection, w)
    | .mutex => .ok (some .memory, { w with st := .error })
    | .client => .ok (some .connection, { w with st := .error, handle := .freed, enabled := true, last := now })
    | .thread => .ok (some .memory, { w with st := .error, handle := .null, enabled := true, last := now })
    | .ok => .ok (none, { w with st := .connecting, handle := .live, enabled := true, last := now, owing := true, link := .trying now })

/-- The connection is up. -/
def Link.isUp : Link → Bool
  | .up _ => true
  | _ => false

/-- An attempt that succeeded. -/
def Link.raised : Link → Link
  | .trying s => .up s
  | l => l

/-- relay.c:329-378 `nostr_relay_disconnect`: closing (353-355) uses the connection, which has to be there. -/
def disconnect (told : Bool) (w : World) : Res (Option Err × World) :=
  match w.handle with
  | .null => .ok (some .invalidParam, w)
  | .freed => .ub
  | .live =>
      if w.st = .connected ∧ w.link.isUp = false then .ub
      else .ok (none, { (if told then say .disconnected w else w) with
        st := .disconnected, handle := .null, enabled := false, link := .none })

/-- relay.c:380-424, 426-485, 508-558: what needs a connection. -/
def send (w : World) : Res (Option Err × World) :=
  if w.st ≠ .connected then .ok (some .invalidParam, w)
  else match w.handle with
    | .null => .ok (some .connection, w)
    | .freed => .ub
    | .live => if w.link.isUp then .ok (none, w) else .ub

/-- What happens leads to an answer and the next world. -/
def step (L : Lib) (w : World) : Op → Res (Option Err × World)
  | .connect o now => connect o now w
  | .report => .ok (none, { w with owing := false, told := .connecting :: w.told })
  | .established => called { w with link := w.link.raised } (say .connected)
  | .refused now => called { w with link := .none } (lost now)
  | .ended now => if L.closed then called { w with link := .none } (lost now) else .ok (none, { w with link := .none })
  | .disconnect told => disconnect told w
  | .send => send w

/-- A history leads from one world to another. -/
inductive Run (L : Lib) : World → List Op → World → Prop
  | nil {w} : Run L w [] w
  | cons {w a w' o os w''} : can L w o → step L w o = .ok (a, w') → Run L w' os w'' → Run L w (o :: os) w''

end Nostr.Relay.State
