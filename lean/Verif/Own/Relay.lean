import Verif.Own.Ev
import Verif.Relay.Faults
import Verif.Relay.Life

/-!
# Memory of a relay connection (src/relay.c)

`Verif/Relay` models what the client does with texts and subscriptions; this file models the blocks: the relay, its URL, the
connection, the linked list of subscriptions with the copies of their ids, the receive buffer, and everything that is
allocated for the duration of a call or of a message. The websocket context and the mutex are blocks as well: they are
obtained and given back like memory. Callbacks may call the library again.

Every call, and the handling of every message, runs alone: C93 is about calls that overlap.
-/

namespace Nostr.Own.Relay
open Nostr Nostr.Heap Nostr.Event Nostr.Json Nostr.Own.Ev
open Nostr.Relay (Sub Call Rx NSub validSubId reqText closeText eventText absorb maxBuffer)
open Nostr.Relay.Life (St)

/-- What the application sees. -/
inductive Seen
  /-- an event callback or the message callback -/
  | call (c : Call)
  /-- the state callback -/
  | state (s : St)
  deriving DecidableEq, Repr

/-- What the application may do with a relay it has connected. -/
inductive Act
  | subscribe (id filters : Bytes) (cb : Option Nat)
  | unsubscribe (id : Bytes)
  | send (e : Event)
  | setCallback (cb : Option Nat)
  | disconnect
  deriving DecidableEq, Repr

/-- The circumstances. `app` says what the application does inside a callback: it may depend on all it has seen so far, this
callback included. -/
structure Env where
  A : Alloc
  P : Plat
  td : Int → Int
  fr : Int → Bytes
  cfg : Option Config.Config
  grow : Event → List Bytes → Bool
  /-- how `cJSON_Print` writes the numbers of a parsed text -/
  r : Bytes → Json
  app : List Seen → List Act

/-- include/nostr.h:198-205 `nostr_relay`, with what is not memory: the contents of the receive buffer (`rx`), a bound for the number of
subscriptions (`n`, for the termination of the loops only), and what the application has seen (`log`). The callbacks are
named by numbers, NULL is `none`. -/
structure Relay where
  self : Nat
  url : Nat
  /-- `ws_handle`: a block `[subscriptions, receive_buffer, message_callback, context, queue_mutex]`, see relay.c:60-85 -/
  handle : Option Nat
  state : St
  msgCb : Option Nat
  rx : Rx
  n : Nat
  log : List Seen
  deriving Repr

/-- relay.c:53-58 `subscription_t`: `[id, callback, next]`. -/
def node : Obj := .ptrs [none, none, none]

/-- relay.c:460-482, 534-554 and 397-420: a block for the text, a block for the frame; both are given back. -/
def transmit (A : Alloc) (t : Res Bytes) : M Unit :=
  M.bind (alloc A blob) fun msg =>
  match msg with
  | none => M.pure ()
  | some msg =>
    match t with
    | .ok _ =>
      M.bind (alloc A blob) fun buf =>
      match buf with
      | none => free (some msg)
      | some buf => M.bind (free (some msg)) fun _ => free (some buf)
    | _ => fun _ => none

/-- relay.c:456-460: the fields of a new subscription, which becomes the first. -/
def link (A : Alloc) (id : Bytes) (cb : Option Nat) (c s : Nat) : M Unit :=
  M.bind (alloc A (.str id)) fun p =>
  M.bind (storePtr s 0 p) fun _ =>
  M.bind (storePtr s 1 cb) fun _ =>
  M.bind (loadPtr (some c) 0) fun head =>
  M.bind (storePtr s 2 head) fun _ =>
  storePtr c 0 (some s)

/-- relay.c:426-485 `nostr_subscribe`. The status is not modelled here (see C131). -/
def subscribe (A : Alloc) (id filters : Bytes) (cb : Option Nat) (w : Relay) : M Relay :=
  if w.state ≠ .connected ∨ validSubId id = false then M.pure w
  else match w.handle with
    | none => M.pure w
    | some c =>
      M.bind (alloc A node) fun s =>
      match s with
      | none => M.pure w
      | some s =>
        match parse filters with
        | none => M.bind (free (some s)) fun _ => M.pure w
        | some _ =>
          M.bind (alloc A blob) fun t =>
          match t with
          | none => M.bind (free (some s)) fun _ => M.pure w
          | some t =>
            M.bind (free (some t)) fun _ =>
            M.bind (link A id cb c s) fun _ =>
            M.bind (transmit A (reqText id filters)) fun _ => M.pure { w with n := w.n + 1 }

/-- relay.c:521-532 and 653-663: unlink the first subscription with this id. `a` and `i` are where `sub_ptr` points to: the
connection's first field or the `next` field of a subscription. -/
def unlink (id : Bytes) : Nat → Nat → Nat → M Unit
  | 0, _, _ => fun _ => none
  | f + 1, a, i =>
      M.bind (loadPtr (some a) i) fun s =>
      match s with
      | none => M.pure ()
      | some s =>
        M.bind (loadPtr (some s) 0) fun p =>
        match p with
        | none => fun _ => none
        | some p =>
          M.bind (loadStr p) fun name =>
          if name = id then
            M.bind (loadPtr (some s) 2) fun next =>
            M.bind (storePtr a i next) fun _ =>
            M.bind (free (some p)) fun _ => free (some s)
          else unlink id f s 2

/-- relay.c:508-558 `nostr_relay_unsubscribe`. -/
def unsubscribe (A : Alloc) (id : Bytes) (w : Relay) : M Relay :=
  if w.state ≠ .connected ∨ validSubId id = false then M.pure w
  else match w.handle with
    | none => M.pure w
    | some c =>
      M.bind (unlink id (w.n + 1) c 0) fun _ =>
      M.bind (transmit A (closeText id)) fun _ => M.pure w

/-- relay.c:380-423 `nostr_relay_send_event` with event.c:385-440 `nostr_event_to_json` in the build with cJSON: the tree, the
text and the message. -/
def send (A : Alloc) (td : Int → Int) (fr : Int → Bytes) (e : Event) (w : Relay) : M Relay :=
  if w.state ≠ .connected then M.pure w
  else
    M.bind (alloc A blob) fun tree =>
    match tree with
    | none => M.pure w
    | some tree =>
      M.bind (alloc A blob) fun json =>
      M.bind (free (some tree)) fun _ =>
      match json with
      | none => M.pure w
      | some json =>
        match w.handle with
        | none => M.bind (free (some json)) fun _ => M.pure w
        | some c =>
          M.bind (load c) fun _ =>
          M.bind (alloc A blob) fun msg =>
          match msg with
          | none => M.bind (free (some json)) fun _ => M.pure w
          | some msg =>
            match toJson (.cjson td fr) e >>= eventText with
            | .ok _ =>
              M.bind (free (some json)) fun _ =>
              M.bind (alloc A blob) fun buf =>
              match buf with
              | none => M.bind (free (some msg)) fun _ => M.pure w
              | some buf => M.bind (free (some msg)) fun _ => M.bind (free (some buf)) fun _ => M.pure w
            | _ => fun _ => none

/-- relay.c:491-506 `nostr_relay_set_message_callback`. -/
def setCallback (cb : Option Nat) (w : Relay) : M Relay :=
  match w.handle with
  | none => M.pure { w with msgCb := cb }
  | some c => M.bind (storePtr c 2 cb) fun _ => M.pure { w with msgCb := cb }

/-- relay.c:363-368: all subscriptions are released. -/
def freeSubs (c : Nat) : Nat → M Unit
  | 0 => fun _ => none
  | f + 1 =>
      M.bind (loadPtr (some c) 0) fun s =>
      match s with
      | none => M.pure ()
      | some s =>
        M.bind (loadPtr (some s) 2) fun next =>
        M.bind (storePtr c 0 next) fun _ =>
        M.bind (loadPtr (some s) 0) fun p =>
        M.bind (free p) fun _ =>
        M.bind (free (some s)) fun _ => freeSubs c f

/-- relay.c:329-378 `nostr_relay_disconnect`. The field `data` is never set. Callbacks that `lws_context_destroy` may
make are not modelled. -/
def disconnect (w : Relay) : M Relay :=
  match w.handle with
  | none => M.pure w
  | some c =>
    M.bind (loadPtr (some c) 3) fun context =>
    M.bind (storePtr c 3 none) fun _ =>
    M.bind (free context) fun _ =>
    M.bind (loadPtr (some c) 4) fun mutex =>
    M.bind (free mutex) fun _ =>
    M.bind (freeSubs c (w.n + 1)) fun _ =>
    M.bind (loadPtr (some c) 1) fun buffer =>
    M.bind (free buffer) fun _ =>
    M.bind (free (some c)) fun _ => M.pure { w with handle := none, state := .disconnected }

/-- A call of the application. -/
def act (E : Env) (a : Act) (w : Relay) : M Relay :=
  match a with
  | .subscribe id filters cb => subscribe E.A id filters cb w
  | .unsubscribe id => unsubscribe E.A id w
  | .send e => send E.A E.td E.fr e w
  | .setCallback cb => setCallback cb w
  | .disconnect => disconnect w

def acts (E : Env) : List Act → Relay → M Relay
  | [], w => M.pure w
  | a :: as, w => M.bind (act E a w) fun w => acts E as w

/-- A callback: the application sees it and does what it wants. -/
def callback (E : Env) (s : Seen) (w : Relay) : M Relay :=
  acts E (E.app (w.log ++ [s])) { w with log := w.log ++ [s] }

/-- relay.c:635-641 (and 643-649, 665-671, 673-679, 680-686): the message callback with the printed array. -/
def notify (E : Env) (c : Nat) (t : Bytes) (root : Json) (w : Relay) : M Relay :=
  M.bind (loadPtr (some c) 2) fun cb =>
  match cb with
  | none => M.pure w
  | some _ =>
    M.bind (alloc E.A blob) fun p =>
    match p with
    | none => M.pure w
    | some p =>
      M.bind (callback E (.call (.message t (print true 0 (mapNum E.r root)))) w) fun w =>
      M.bind (free (some p)) fun _ => M.pure w

/-- relay.c:615-632, the search: the first subscription with this id. -/
def search (id : Bytes) : Nat → Option Nat → M (Option Nat)
  | 0, _ => fun _ => none
  | _ + 1, none => M.pure none
  | f + 1, some s =>
      M.bind (loadPtr (some s) 0) fun p =>
      match p with
      | none => fun _ => none
      | some p =>
        M.bind (loadStr p) fun name =>
        if name = id then M.pure (some s)
        else M.bind (loadPtr (some s) 2) fun next => search id f next

/-- relay.c:619-624: the subscription's callback, if there is one. -/
def toSub (E : Env) (s : Nat) (v : Event) (w : Relay) : M Relay :=
  M.bind (loadPtr (some s) 1) fun cb =>
  match cb with
  | none => M.pure w
  | some k => callback E (.call (.event k v)) w

/-- relay.c:615-632: the event for the first subscription with this id. -/
def deliver (E : Env) (c : Nat) (id : Bytes) (ev : Json) (w : Relay) : M Relay :=
  M.bind (loadPtr (some c) 0) fun head =>
  M.bind (search id (w.n + 1) head) fun s =>
  match s with
  | none => M.pure w
  | some s =>
    M.bind (alloc E.A blob) fun p =>
    match p with
    | none => M.pure w
    | some p =>
      M.bind (fromJson E.A E.P E.cfg E.grow (print true 0 (mapNum E.r ev))) fun q =>
      match q.1, q.2.2 with
      | none, some e =>
          M.bind (M.bind (toSub E s q.2.1 w) fun w => M.bind (Ev.destroy e) fun _ => M.pure w) fun w =>
          M.bind (free (some p)) fun _ => M.pure w
      | _, _ => M.bind (free (some p)) fun _ => M.pure w

/-- relay.c:604-688: what is done with a parsed message. -/
def body (E : Env) (c : Nat) (tree : Json) (w : Relay) : M Relay :=
  match tree with
  | .arr (.str t :: j1 :: js) =>
      if t = c!"EVENT" ∧ js ≠ [] then
        match j1, js with
        | .str id, ev :: _ => deliver E c id ev w
        | _, _ => M.pure w
      else if t = c!"CLOSED" ∧ js ≠ [] then
        match j1 with
        | .str id => M.bind (unlink id (w.n + 1) c 0) fun _ => notify E c t (.arr (.str t :: j1 :: js)) w
        | _ => notify E c t (.arr (.str t :: j1 :: js)) w
      else notify E c t (.arr (.str t :: j1 :: js)) w
  | _ => M.pure w

/-- relay.c:603-690: one message text; the tree is given back. -/
def message (E : Env) (c : Nat) (text : Bytes) (w : Relay) : M Relay :=
  match parse text with
  | none => M.pure w
  | some tree =>
    M.bind (alloc E.A blob) fun root =>
    match root with
    | none => M.pure w
    | some root => M.bind (body E c tree w) fun w => M.bind (free (some root)) fun _ => M.pure w

/-- relay.c:599-695: message after message. The byte behind a message is set to NUL before (601) and restored after it (691):
both go through the pointer to the buffer `b` that was read at the start. -/
def messages (E : Env) (c b : Nat) : List Bytes → Relay → M Relay
  | [], w => M.pure w
  | t :: ts, w =>
      M.bind (load b) fun _ =>
      M.bind (message E c t w) fun w =>
      M.bind (load b) fun _ => messages E c b ts w

/-- relay.c:590-706: the chunk is appended to the buffer `b`, the complete messages are handled, the rest moves to the front of
the connection's buffer. The connection `c` was read at the start (563). -/
def process (E : Env) (c b : Nat) (rx : Rx) (chunk : Bytes) (w : Relay) : M Relay :=
  M.bind (load b) fun _ =>
  match absorb rx chunk with
  | .ok (rx', ts) =>
      M.bind (messages E c b ts w) fun w =>
      M.bind (loadPtr (some c) 1) fun q =>
      match q with
      | none => fun _ => none
      | some q => M.bind (load q) fun _ => M.pure { w with rx := rx' }
  | _ => fun _ => none

/-- relay.c:575-707: a chunk arrives. -/
def arrive (E : Env) (chunk : Bytes) (w : Relay) : M Relay :=
  match w.handle with
  | none => M.pure w
  | some c =>
    if chunk.length = 0 then M.pure w
    else if w.rx.buf.length + chunk.length ≥ w.rx.size then
      if w.rx.buf.length + chunk.length + 1024 > maxBuffer then M.pure { w with rx := ⟨[], w.rx.size⟩ }
      else
        M.bind (loadPtr (some c) 1) fun b =>
        M.bind (resize E.A b) fun b =>
        match b with
        | none => M.pure w
        | some b =>
          M.bind (storePtr c 1 (some b)) fun _ =>
          process E c b ⟨w.rx.buf, w.rx.buf.length + chunk.length + 1024⟩ chunk w
    else
      M.bind (loadPtr (some c) 1) fun b =>
      match b with
      | none => fun _ => none
      | some b => process E c b w.rx chunk w

/-- What happens to a connected relay. -/
inductive Op
  /-- the application makes a call -/
  | act (a : Act)
  /-- bytes arrive -/
  | arrive (chunk : Bytes)
  /-- the connection is established -/
  | established
  /-- the connection is lost; `again`: the reconnect interval has passed -/
  | lost (again : Bool)
  deriving DecidableEq, Repr

/-- relay.c:711-726: the connection is lost. -/
def lose (E : Env) (again : Bool) (w : Relay) : M Relay :=
  M.bind (callback E (.state .disconnected) { w with state := .disconnected }) fun w =>
  if again then callback E (.state .connecting) { w with state := .connecting } else M.pure w

def op (E : Env) (o : Op) (w : Relay) : M Relay :=
  match o with
  | .act a => act E a w
  | .arrive chunk => arrive E chunk w
  | .established => match w.handle with
      | none => M.pure w
      | some _ => callback E (.state .connected) { w with state := .connected }
  | .lost again => match w.handle with
      | none => M.pure w
      | some _ => lose E again w

def ops (E : Env) : List Op → Relay → M Relay
  | [], w => M.pure w
  | o :: os, w => M.bind (op E o w) fun w => ops E os w

/-! ## From creation to destruction -/

/-- What the websocket library and the threads do in `nostr_relay_connect`. -/
inductive Link
  /-- `lws_client_connect_via_info` returns NULL -/
  | refused
  /-- `pthread_create` fails -/
  | noThread
  | up
  deriving DecidableEq, Repr

/-- relay.c:161-184 `nostr_relay_create`; `none`: NOSTR_ERR_MEMORY. -/
def create (A : Alloc) (url : Bytes) : M (Option Relay) :=
  M.bind (alloc A blob) fun p =>
  match p with
  | none => M.pure none
  | some p =>
    M.bind (alloc A (.str url)) fun u =>
    match u with
    | none => M.bind (free (some p)) fun _ => M.pure none
    | some u => M.pure (some ⟨p, u, none, .disconnected, none, Rx.new, 0, []⟩)

/-- relay.c:278-327: the end of `nostr_relay_connect`, from the client connection on. -/
def launch (E : Env) (l : Link) (copy context mutex c : Nat) (w : Relay) : M (Bool × Relay) :=
  match l with
  | .refused =>
      M.bind (free (some copy)) fun _ =>
      M.bind (free (some c)) fun _ =>
      M.bind (free (some context)) fun _ => M.pure (false, { w with handle := some c, state := .error })
  | .noThread =>
      M.bind (free (some copy)) fun _ =>
      M.bind (free (some mutex)) fun _ =>
      M.bind (free (some context)) fun _ =>
      M.bind (free (some c)) fun _ => M.pure (false, { w with handle := none, state := .error })
  | .up =>
      M.bind (free (some copy)) fun _ =>
      M.bind (callback E (.state .connecting) { w with handle := some c, state := .connecting, rx := Rx.new }) fun w =>
      M.pure (true, w)

/-- relay.c:197-327 `nostr_relay_connect`; the first component: NOSTR_OK. -/
def connect (E : Env) (l : Link) (w : Relay) : M (Bool × Relay) :=
  if w.state = .connected ∨ w.state = .connecting then M.pure (false, w)
  else
    M.bind (alloc E.A blob) fun context =>
    match context with
    | none => M.pure (false, w)
    | some context =>
      M.bind (loadStr w.url) fun url =>
      M.bind (alloc E.A (.str url)) fun copy =>
      match copy with
      | none => fun _ => none
      | some copy =>
        match Nostr.Relay.resolve true url with
        | .ok _ =>
          M.bind (alloc E.A (.ptrs [none, none, w.msgCb, some context, none])) fun c =>
          match c with
          | none => M.bind (free (some copy)) fun _ => M.bind (free (some context)) fun _ => M.pure (false, w)
          | some c =>
            M.bind (alloc E.A blob) fun mutex =>
            match mutex with
            | none =>
                M.bind (free (some copy)) fun _ =>
                M.bind (free (some c)) fun _ =>
                M.bind (free (some context)) fun _ => M.pure (false, { w with state := .error })
            | some mutex => M.bind (storePtr c 4 (some mutex)) fun _ => launch E l copy context mutex c w
        | _ => M.bind (free (some copy)) fun _ => M.bind (free (some context)) fun _ => M.pure (false, w)

/-- relay.c:186-195 `nostr_relay_destroy`. -/
def destroy (w : Relay) : M Unit :=
  M.bind (if w.state = .connected ∨ w.state = .connecting then disconnect w else M.pure w) fun w =>
  M.bind (free (some w.url)) fun _ => free (some w.self)

/-- The application connects; when that succeeds, things happen, and it disconnects. -/
def session (E : Env) (l : Link) (os : List Op) (w : Relay) : M Relay :=
  M.bind (connect E l w) fun r =>
  if r.1 then M.bind (ops E os r.2) fun w => disconnect w else M.pure r.2

def sessions (E : Env) : List (Link × List Op) → Relay → M Relay
  | [], w => M.pure w
  | s :: ss, w => M.bind (session E s.1 s.2 w) fun w => sessions E ss w

/-- The whole life of a relay; the result is what the application has seen. -/
def life (E : Env) (url : Bytes) (ss : List (Link × List Op)) : M (List Seen) :=
  M.bind (create E.A url) fun w =>
  match w with
  | none => M.pure []
  | some w => M.bind (sessions E ss w) fun w => M.bind (destroy w) fun _ => M.pure w.log

end Nostr.Own.Relay
