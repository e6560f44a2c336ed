import Verif.Own.Conn
import Verif.Session.Model

/-! # Memory of wallet sessions (src/nip47_session.c)

The table of sessions, the connection and the array of permissions of each session, and the texts of session ids that
are handed out. A slot keeps the values of `Session.Slot` beside its pointers: `val.conn` only says which call made the
connection, `val.cap` is the size of the array, and the names in `val.perms` are those that were given; what the code
reads through pointers is read from the heap here. The time and the configured maxima are arguments of each call. -/

namespace Nostr.Own.Sessions
open Nostr Nostr.Heap

/-- nip47_session.c:17-27 `nwc_session_t`: `conn` and `array` are the pointers `connection` and `permissions`. -/
structure HSlot where
  val : Session.Slot
  conn : Option Conn.HConn
  array : Option Nat
  deriving DecidableEq, Repr

/-- nip47_session.c:29-37: the variables of the file. `table` is `sessions` and `slots` its contents, `max` is
`max_sessions`. `texts` are the session ids that the application was given and has not released. -/
structure World where
  table : Option Nat
  max : Nat
  slots : List HSlot
  window : Int
  count : Nat
  texts : List Nat
  deriving DecidableEq, Repr

/-- Before the first call. -/
def World.start : World := ⟨none, 0, [], 0, 0, []⟩

/-- nip47_session.c:97-104: an unused slot. -/
def HSlot.empty : HSlot := ⟨.empty, none, none⟩

/-- nip47_session.c:86-113 `nostr_nip47_session_init`. The maximum is set before the table is allocated; `table ≠ none`
is `sessions_initialized`. -/
def init (A : Alloc) (max : Nat) (w : World) : M (World × Session.Ret) :=
  match w.table with
  | some _ => M.pure (w, .ok)
  | none =>
      M.bind (alloc A (.ints [])) fun p =>
      match p with
      | none => M.pure ({ w with max := max }, .memory)
      | some a => M.pure ({ w with table := some a, max := max, slots := List.replicate max .empty }, .ok)

/-- nip47_session.c:252-259: the first permission for the method, looking through the names in the heap; `strcmp` on
NULL is undefined. -/
def search (p : Option Nat) (method : Bytes) : Nat → Nat → M (Option Nat)
  | 0, _ => M.pure none
  | n + 1, i =>
      M.bind (loadPtr p i) fun q =>
      match q with
      | none => fun _ => none
      | some a => M.bind (loadStr a) fun s =>
          if s = method ∨ s = c!"*" then M.pure (some i) else search p method n (i + 1)

/-- nip47_session.c:243-282: `nostr_nip47_session_check_permission` on the slot that was found. The numbers of the
permission are those of `val.perms`. -/
def check (now : Int) (method : Bytes) (amount : Nat) (s : HSlot) : M (HSlot × Session.Ret) :=
  if s.val.expires < now then M.pure (s, .bad)
  else
    M.bind (search s.array method s.val.perms.length 0) fun r =>
    match r with
    | none => M.pure ({ s with val := { s.val with lastUsed := now } }, .bad)
    | some i => match s.val.perms[i]? with
      | none => fun _ => none
      | some p => M.pure ({ s with val := { s.val with
            lastUsed := now, perms := s.val.perms.set i (Session.spend now amount p).1 } },
          if (Session.spend now amount p).2 then .ok else .bad)

/-- nip47_session.c:206-229: `nostr_nip47_session_add_permission` on the slot that was found. The copy of the name may
be NULL; the call succeeds all the same. -/
def add (A : Alloc) (max : Nat) (now : Int) (name : Bytes) (limit interval : Nat) (s : HSlot) : M (HSlot × Session.Ret) :=
  if s.val.perms.length ≥ max then M.pure (s, .memory)
  else
    M.bind (match s.array with
      | some p => M.pure (some p, s.val.cap)
      | none => M.bind (alloc A (.ptrs (List.replicate max none))) fun p => M.pure (p, some max)) fun pc =>
    match pc.1 with
    | none => M.pure (s, .memory)
    | some p =>
        M.bind (alloc A (.str name)) fun q =>
        M.bind (storePtr p s.val.perms.length q) fun _ =>
        M.pure (⟨{ s.val with perms := s.val.perms ++ [⟨name, limit, now + interval, interval, 0⟩], cap := pc.2 }, s.conn, some p⟩, .ok)

/-- nip47_session.c:361-364 and 70-73: the connection of the slot, if there is one. -/
def freeLink : Option Conn.HConn → M Unit
  | none => M.pure ()
  | some c => Conn.freeConn c

/-- nip47_session.c:360-371 and 69-79: the slot is given up: the connection, the names and the array are released. -/
def release (s : HSlot) : M HSlot :=
  M.bind (freeLink s.conn) fun _ =>
  M.bind (freePtrs s.array s.val.perms.length 0) fun _ =>
  M.bind (free s.array) fun _ =>
  M.pure ⟨Session.release s.val, none, none⟩

/-- The part of a call that runs under the lock of the slot: nip47_session.c:206-229, 243-282, 307-316, 337, 360-371. -/
def body (A : Alloc) (max : Nat) (now : Int) (r : Session.Req) (s : HSlot) : M (HSlot × Session.Ret) :=
  match r with
  | .add n l i => add A max now n l i s
  | .check m a => check now m a s
  | .get => M.pure ({ s with val := (Session.getConn now s.val).1 }, (Session.getConn now s.val).2)
  | .extend n => M.pure ({ s with val := (Session.extend n s.val).1 }, (Session.extend n s.val).2)
  | .destroy => M.bind (release s) fun s => M.pure (s, .ok)

/-- nip47_session.c:63-82 `cleanup_expired_sessions`. -/
def cleanup (now : Int) : List HSlot → M (List HSlot)
  | [] => M.pure []
  | s :: ss =>
      M.bind (if s.val.active && decide (s.val.expires < now) then release s else M.pure s) fun s' =>
      M.bind (cleanup now ss) fun ss' => M.pure (s' :: ss')

/-- nip47_session.c:39-47 `find_session`. A table that could not be allocated is read all the same when `max` is set. -/
def find (w : World) (id : Bytes) : M (Option Nat) := fun h =>
  if w.table = none ∧ w.max > 0 then none
  else match Session.findSlot (w.slots.map (·.val)) id with
    | .ok k => some (k, h)
    | _ => none

/-- nip47_session.c:130-184: `nostr_nip47_session_create` after the text is read. `tag` stands for the connection in
`val`; `id = none` is failure of the random generator. The copy of the id may be NULL; the call succeeds all the
same. -/
def place (A : Alloc) (now : Int) (timeout : Nat) (id : Option Bytes) (tag : Nat) (c : Conn.HConn) (w : World) :
    M (World × Session.Ret) :=
  let t := Session.tick now ⟨[], w.window, w.count⟩
  let w := { w with window := t.window, count := t.count }
  if w.count ≥ 10 then M.bind (Conn.freeConn c) fun _ => M.pure (w, .bad)
  else if w.table = none ∧ w.max > 0 then fun _ => none
  else
    M.bind (cleanup now w.slots) fun slots =>
    let w := { w with count := w.count + 1, slots := slots }
    match slots.findIdx? (fun s => !s.val.active), id with
    | none, _ => M.bind (Conn.freeConn c) fun _ => M.pure (w, .memory)
    | some _, none => M.bind (Conn.freeConn c) fun _ => M.pure (w, .memory)
    | some k, some i =>
        M.bind (alloc A (.str i)) fun text =>
        M.pure ({ w with slots := slots.modify k fun s => { s with conn := some c, val := Session.start now timeout i tag s.val },
                         texts := text.toList ++ w.texts }, .ok)

/-- nip47_session.c:115-128: the error of the connection text is that of the call. -/
def refusal : Err → Session.Ret
  | .memory => .memory
  | _ => .bad

/-- nip47_session.c:115-185 `nostr_nip47_session_create`. The result of `init` is not looked at. -/
def create (A : Alloc) (max : Nat) (now : Int) (timeout : Nat) (id : Option Bytes) (tag : Nat) (uri : Bytes) (w : World) :
    M (World × Session.Ret) :=
  M.bind (init A max w) fun r =>
  M.bind (Conn.parse A uri) fun p =>
  match p.1, p.2 with
  | none, some c => place A now timeout id tag c r.1
  | some e, _ => M.pure (r.1, refusal e)
  | none, none => fun _ => none

/-- What an application does. -/
inductive Op
  /-- `nostr_nip47_session_init` with the configured maximum -/
  | init (max : Nat)
  /-- `nostr_nip47_session_create` -/
  | create (max : Nat) (now : Int) (timeout : Nat) (id : Option Bytes) (tag : Nat) (uri : Bytes)
  /-- a call on an existing session -/
  | call (max : Nat) (now : Int) (id : Bytes) (r : Session.Req)
  /-- a call on an existing session that found slot `k` before the calls ahead of it in the history -/
  | late (max : Nat) (now : Int) (k : Nat) (r : Session.Req)
  /-- the application releases the text of a session id -/
  | drop (k : Nat)
  deriving DecidableEq, Repr

/-- One call. -/
def step (A : Alloc) (op : Op) (w : World) : M (World × Session.Ret) :=
  match op with
  | .init max => init A max w
  | .create max now timeout id tag uri => create A max now timeout id tag uri w
  | .call max now id r =>
      M.bind (find w id) fun k =>
      match k with
      | none => M.pure (w, .bad)
      | some k => match w.slots[k]? with
        | none => fun _ => none
        | some s => M.bind (body A max now r s) fun q => M.pure ({ w with slots := w.slots.set k q.1 }, q.2)
  | .late max now k r =>
      match w.slots[k]? with
      | none => M.pure (w, .bad)
      | some s => M.bind (body A max now r s) fun q => M.pure ({ w with slots := w.slots.set k q.1 }, q.2)
  | .drop k =>
      match w.texts[k]? with
      | none => M.pure (w, .ok)
      | some a => M.bind (free (some a)) fun _ => M.pure ({ w with texts := w.texts.eraseIdx k }, .ok)

/-- A history of calls, with the results. -/
def run (A : Alloc) : List Op → World → M (World × List Session.Ret)
  | [], w => M.pure (w, [])
  | op :: ops, w => M.bind (step A op w) fun r => M.bind (run A ops r.1) fun q => M.pure (q.1, r.2 :: q.2)

end Nostr.Own.Sessions
