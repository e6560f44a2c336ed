import Verif.Basic

/-!
# Model of wallet sessions (src/nip47_session.c)

The bodies of the calls on one session slot, the table, and the locking. Times are unbounded integers; sums of
a time and a 32-bit interval do not overflow a 64-bit `time_t` in the range of real clocks. A wallet connection
is represented by a number.
-/

namespace Nostr.Session
open Nostr

/-- nip47_session.c:9-15 `permission_t`. -/
structure Perm where
  name : Bytes
  limit : Nat
  reset : Int
  interval : Nat
  used : Nat
  deriving DecidableEq, Repr

/-- nip47_session.c:17-27 `nwc_session_t` without the lock. `conn = none` is NULL. `perms` are the first
`permission_count` entries of the array and `cap` its size, `none` for NULL. -/
structure Slot where
  id : Bytes
  conn : Option Nat
  perms : List Perm
  cap : Option Nat
  lastUsed : Int
  expires : Int
  active : Bool
  deriving DecidableEq, Repr

/-- nip47_session.c:97-104: an unused slot. -/
def Slot.empty : Slot := ⟨List.replicate 64 0, none, [], none, 0, 0, false⟩

/-- nip47_session.c:253-261: the permission is for this method, or for all methods. -/
def applies (method : Bytes) (p : Perm) : Bool := decide (p.name = method) || decide (p.name = c!"*")

/-- nip47_session.c:268-271: a new budget period. -/
def renew (now : Int) (p : Perm) : Perm :=
  if p.reset < now then { p with used := 0, reset := now + p.interval } else p

/-- nip47_session.c:268-279: the budget of one permission in `uint64_t` arithmetic; `none` is refusal. -/
def spend (now : Int) (amount : Nat) (p : Perm) : Perm × Bool :=
  let p := renew now p
  if p.limit > 0 ∧ (p.used + amount) % 2 ^ 64 > p.limit then (p, false)
  else ({ p with used := (p.used + amount) % 2 ^ 64 }, true)

/-- nip47_session.c:252-279: the first permission that applies decides. -/
def spendFirst (now : Int) (method : Bytes) (amount : Nat) : List Perm → List Perm × Bool
  | [] => ([], false)
  | p :: ps =>
      if applies method p then ((spend now amount p).1 :: ps, (spend now amount p).2)
      else (p :: (spendFirst now method amount ps).1, (spendFirst now method amount ps).2)

/-- What a call returns: an error code, success, or success with a connection. -/
inductive Ret
  | bad | memory | ok | conn (c : Option Nat)
  deriving DecidableEq, Repr

/-- nip47_session.c:243-282: `nostr_nip47_session_check_permission` on the slot that was found. -/
def check (now : Int) (method : Bytes) (amount : Nat) (s : Slot) : Slot × Ret :=
  if s.expires < now then (s, .bad)
  else
    let r := spendFirst now method amount s.perms
    ({ s with lastUsed := now, perms := r.1 }, if r.2 then .ok else .bad)

/-- nip47_session.c:206-229: `nostr_nip47_session_add_permission` on the slot that was found, with the
configured maximum and allocation that succeeds. -/
def add (max : Nat) (now : Int) (name : Bytes) (limit interval : Nat) (s : Slot) : Res (Slot × Ret) :=
  if s.perms.length ≥ max then .ok (s, .memory)
  else
    let cap := s.cap.getD max
    if s.perms.length ≥ cap then .ub
    else .ok ({ s with cap := some cap, perms := s.perms ++ [⟨name, limit, now + interval, interval, 0⟩] }, .ok)

/-- nip47_session.c:307-316: `nostr_nip47_session_get_connection` on the slot that was found. -/
def getConn (now : Int) (s : Slot) : Slot × Ret :=
  if s.expires < now then (s, .bad) else ({ s with lastUsed := now }, .conn s.conn)

/-- nip47_session.c:337: `nostr_nip47_session_extend` on the slot that was found. -/
def extend (secs : Nat) (s : Slot) : Slot × Ret := ({ s with expires := s.expires + secs }, .ok)

/-- nip47_session.c:360-371 (and 69-79): the slot is given up. -/
def release (s : Slot) : Slot := { s with active := false, conn := none, perms := [], cap := none }

/-- The calls on an existing session. -/
inductive Req
  | add (name : Bytes) (limit interval : Nat)
  | check (method : Bytes) (amount : Nat)
  | get
  | extend (secs : Nat)
  | destroy
  deriving DecidableEq, Repr

/-- The part of a call that runs under the lock of the slot. -/
def body (max : Nat) (now : Int) (r : Req) (s : Slot) : Res (Slot × Ret) :=
  match r with
  | .add n l i => add max now n l i s
  | .check m a => .ok (check now m a s)
  | .get => .ok (getConn now s)
  | .extend n => .ok (extend n s)
  | .destroy => .ok (release s, .ok)

/-! ## The table -/

/-- nip47_session.c:39-47 `find_session`: the first active slot with this id. The comparison reads 64 bytes of
the given text. -/
def findSlot (slots : List Slot) (id : Bytes) : Res (Option Nat) :=
  if id.length + 1 < 64 ∧ (∃ s ∈ slots, s.active = true) then .ub
  else .ok (slots.findIdx? fun s => s.active && decide (s.id = (id ++ [0]).take 64))

/-- nip47_session.c:63-82 `cleanup_expired_sessions`. -/
def cleanup (now : Int) (slots : List Slot) : List Slot :=
  slots.map fun s => if s.active && decide (s.expires < now) then release s else s

/-- The table and the rate limiter. -/
structure Table where
  slots : List Slot
  window : Int
  count : Nat
  deriving DecidableEq, Repr

/-- nip47_session.c:167-175: the new session; the array of permissions is kept as it is. -/
def start (now : Int) (timeout : Nat) (id : Bytes) (conn : Nat) (s : Slot) : Slot :=
  { s with id := id, conn := some conn, lastUsed := now, expires := now + timeout, active := true, perms := [] }

/-- nip47_session.c:132-136: the window of the rate limiter. -/
def tick (now : Int) (t : Table) : Table := if now - t.window ≥ 1 then { t with window := now, count := 0 } else t

/-- nip47_session.c:144-184: the slots and the result when the rate limit is not reached. -/
def place (now : Int) (timeout : Nat) (id : Option Bytes) (conn : Nat) (slots : List Slot) : List Slot × Ret :=
  match (cleanup now slots).findIdx? (fun s => !s.active), id with
  | none, _ => (cleanup now slots, .memory)
  | some _, none => (cleanup now slots, .memory)
  | some k, some i => ((cleanup now slots).modify k (start now timeout i conn), .ok)

/-- nip47_session.c:130-184: `nostr_nip47_session_create` after the URI is parsed; `id = none` is failure of the
random generator. One reading of the clock stands for the three in the code. -/
def create (now : Int) (timeout : Nat) (id : Option Bytes) (conn : Nat) (t : Table) : Table × Ret :=
  if (tick now t).count ≥ 10 then (tick now t, .bad)
  else ({ tick now t with count := (tick now t).count + 1, slots := (place now timeout id conn t.slots).1 },
    (place now timeout id conn t.slots).2)

/-- nip47_session.c:86-113 `nostr_nip47_session_init`. -/
def init (max : Nat) : Table := ⟨List.replicate max .empty, 0, 0⟩

/-- A call on an existing session, run without interference. -/
def call (max : Nat) (now : Int) (id : Bytes) (r : Req) (t : Table) : Res (Table × Ret) :=
  findSlot t.slots id >>= fun k =>
    match k with
    | none => .ok (t, .bad)
    | some k => match t.slots[k]? with
        | none => .ub
        | some s => body max now r s >>= fun q => .ok ({ t with slots := t.slots.set k q.1 }, q.2)

/-! ## Locking -/

/-- Where a thread is. -/
inductive Pc
  | idle
  /-- found the slot, holds the table lock, waits for the lock of the slot (e.g. nip47_session.c:240-249) -/
  | waiting (id : Bytes) (r : Req) (k : Nat)
  /-- holds the lock of the slot, the table lock is released -/
  | inside (id : Bytes) (r : Req) (k : Nat)
  /-- has done its work and still holds the lock of the slot -/
  | leaving (k : Nat)
  deriving DecidableEq, Repr

/-- The shared state: the table, the two kinds of locks with their owners, the threads, the ids in use so far
(with that of empty slots), and the results in the order in which the work was done, latest first. -/
structure World where
  table : Table
  big : Option Nat
  small : Nat → Option Nat
  pc : Nat → Pc
  ids : List Bytes
  log : List (Bytes × Req × Ret)

/-- Change one value of a function. -/
def upd {α : Type} (f : Nat → α) (k : Nat) (v : α) : Nat → α := fun j => if j = k then v else f j

/-- The slots that `create` locks: those it cleans up, and those that are free. -/
def touched (now : Int) (t : Table) (k : Nat) : Prop :=
  ∃ s, t.slots[k]? = some s ∧ (s.active = false ∨ s.expires < now)

/-- One step of one thread. `max` and `now` may differ from step to step. Creating a session is one step that
waits until the locks it needs are free; the random id is 64 bytes long and new, or (`failed`) cannot be made. -/
inductive Step : World → World → Prop
  | absent {w id t} : w.big = none → w.pc t = .idle → findSlot w.table.slots id = .ok none →
      Step w w
  | found {w id r t k} : w.big = none → w.pc t = .idle → findSlot w.table.slots id = .ok (some k) →
      Step w { w with big := some t, pc := upd w.pc t (.waiting id r k) }
  | lock {w id r t k} : w.pc t = .waiting id r k → w.small k = none →
      Step w { w with big := none, small := upd w.small k (some t), pc := upd w.pc t (.inside id r k) }
  | work {w id r t k s q} (max : Nat) (now : Int) : w.pc t = .inside id r k → w.table.slots[k]? = some s →
      body max now r s = .ok q →
      Step w { w with table := { w.table with slots := w.table.slots.set k q.1 }, pc := upd w.pc t (.leaving k),
                      log := (id, r, q.2) :: w.log }
  | unlock {w t k} : w.pc t = .leaving k → Step w { w with small := upd w.small k none, pc := upd w.pc t .idle }
  | create {w} (now : Int) (timeout : Nat) (id : Bytes) (conn : Nat) : w.big = none →
      (∀ k, touched now w.table k → w.small k = none) → id.length = 64 → id ∉ w.ids →
      Step w { w with table := (create now timeout (some id) conn w.table).1, ids := id :: w.ids }
  | failed {w} (now : Int) (timeout : Nat) (conn : Nat) : w.big = none → (∀ k, touched now w.table k → w.small k = none) →
      Step w { w with table := (create now timeout none conn w.table).1 }

/-- Before the first call. -/
def start0 (max : Nat) : World := ⟨init max, none, fun _ => none, fun _ => .idle, [List.replicate 64 0], []⟩

/-- Reachable from the start by any number of steps of any threads. -/
inductive Reach (max : Nat) : World → Prop
  | start : Reach max (start0 max)
  | step {w w'} : Reach max w → Step w w' → Reach max w'

end Nostr.Session
