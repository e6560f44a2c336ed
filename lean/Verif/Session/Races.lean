import Verif.Basic

/-!
# The memory shared by session calls (src/nip47_session.c)

Any number of threads make session calls. Each call is a program of single reads and writes of shared variables and of operations on
the mutexes, with the values on which its course depends; the scheduler lets one thread do one step at a time. The allocations
succeed. Reading the connection text before, and everything else that is private to the call, is left out. `time` and the random
generator are parameters of the call.
-/

namespace Nostr.Session.Races
open Nostr

/-- nip47_session.c:29-37 and the members of the `i`-th session, 17-27. -/
inductive Loc
  /-- sessions_initialized -/
  | inited
  /-- max_sessions -/
  | max
  /-- sessions -/
  | table
  /-- rate_limit_window_start, rate_limit_count -/
  | rateStart
  | rateCount
  | id (i : Nat)
  | conn (i : Nat)
  /-- permissions, with the array and its texts -/
  | perms (i : Nat)
  | count (i : Nat)
  | created (i : Nat)
  | used (i : Nat)
  | expires (i : Nat)
  | active (i : Nat)
  deriving DecidableEq, Repr

/-- sessions_lock, and the lock of the `i`-th session. -/
inductive Lock
  | big
  | slot (i : Nat)
  deriving DecidableEq, Repr

/-- What is left of a call. -/
inductive Prog
  | done
  | rd (l : Loc) (k : Nat → Prog)
  | wr (l : Loc) (v : Nat) (k : Prog)
  | lock (m : Lock) (k : Prog)
  | unlock (m : Lock) (k : Prog)

/-- nip47_session.c:39-47 `find_session`: `n` slots from `i` on. -/
def scan (want : Nat) (k : Option Nat → Prog) : Nat → Nat → Prog
  | 0, _ => k none
  | n + 1, i => .rd (.active i) fun a =>
      if a = 0 then scan want k n (i + 1)
      else .rd (.id i) fun v => if v = want then k (some i) else scan want k n (i + 1)

/-- nip47_session.c:194-203, 241-250, 296-305, 326-335, 349-358: the session is found under the big lock, which is given back when its
own lock has been taken. -/
def withSession (want : Nat) (body : Nat → Prog) : Prog :=
  .lock .big <| .rd .max fun n => .rd .table fun _ => scan want (fun
    | none => .unlock .big .done
    | some i => .lock (.slot i) <| .unlock .big <| body i) n 0

/-- nip47_session.c:205-231 `nostr_nip47_session_add_permission`. -/
def add (maxPerms i : Nat) : Prog :=
  .rd (.count i) fun c =>
    if c ≥ maxPerms then .unlock (.slot i) .done
    else .rd (.perms i) fun p =>
      let rest : Prog := .wr (.perms i) 1 <| .wr (.count i) (c + 1) <| .unlock (.slot i) .done
      if p = 0 then .wr (.perms i) 1 rest else rest

/-- nip47_session.c:252-287 `nostr_nip47_session_check_permission`; `spend`: the permission changes. -/
def check (now : Nat) (spend : Bool) (i : Nat) : Prog :=
  .rd (.expires i) fun e =>
    if e < now then .unlock (.slot i) .done
    else .wr (.used i) now <| .rd (.count i) fun _ => .rd (.perms i) fun _ =>
      if spend then .wr (.perms i) 1 <| .unlock (.slot i) .done else .unlock (.slot i) .done

/-- nip47_session.c:307-317 `nostr_nip47_session_get_connection`. -/
def getConn (now i : Nat) : Prog :=
  .rd (.expires i) fun e =>
    if e < now then .unlock (.slot i) .done
    else .wr (.used i) now <| .rd (.conn i) fun _ => .unlock (.slot i) .done

/-- nip47_session.c:337-340 `nostr_nip47_session_extend`. -/
def extend (secs i : Nat) : Prog :=
  .rd (.expires i) fun e => .wr (.expires i) (e + secs) <| .unlock (.slot i) .done

/-- nip47_session.c:69-81, 360-373: what is done to a session that ends. -/
def clear (i : Nat) (k : Prog) : Prog :=
  .wr (.active i) 0 <| .rd (.conn i) fun _ => .wr (.conn i) 0 <| .rd (.count i) fun _ => .rd (.perms i) fun _ =>
    .wr (.perms i) 0 <| .wr (.count i) 0 <| .unlock (.slot i) k

/-- nip47_session.c:100-107. -/
def prepare (k : Prog) : Nat → Nat → Prog
  | 0, _ => k
  | n + 1, i => .wr (.active i) 0 <| .wr (.count i) 0 <| .wr (.conn i) 0 <| .wr (.perms i) 0 <| .wr (.id i) 0 <| prepare k n (i + 1)

/-- nip47_session.c:86-113 `nostr_nip47_session_init`; `n` is the configured number. -/
def init (n : Nat) (k : Prog) : Prog :=
  .lock .big <| .rd .inited fun v =>
    if v = 0 then .wr .max n <| .wr .table 1 <| prepare (.wr .inited 1 <| .unlock .big k) n 0
    else .unlock .big k

/-- nip47_session.c:63-84 `cleanup_expired_sessions`. -/
def cleanup (now : Nat) (k : Prog) : Nat → Nat → Prog
  | 0, _ => k
  | n + 1, i => .rd (.active i) fun a =>
      if a = 0 then cleanup now k n (i + 1)
      else .rd (.expires i) fun e =>
        if e < now then .lock (.slot i) <| clear i <| cleanup now k n (i + 1) else cleanup now k n (i + 1)

/-- nip47_session.c:147-153: the first free slot. -/
def free (k : Option Nat → Prog) : Nat → Nat → Prog
  | 0, _ => k none
  | n + 1, i => .rd (.active i) fun a => if a = 0 then k (some i) else free k n (i + 1)

/-- nip47_session.c:161-184; `fresh` is the new id, `none` if the random generator fails. -/
def fill (fresh : Option Nat) (now timeout i : Nat) : Prog :=
  .lock (.slot i) <|
    match fresh with
    | none => .unlock (.slot i) <| .unlock .big .done
    | some v => .wr (.id i) v <| .wr (.conn i) 1 <| .wr (.created i) now <| .rd (.created i) fun c => .wr (.used i) c <|
        .rd (.created i) fun c => .wr (.expires i) (c + timeout) <| .wr (.active i) 1 <| .wr (.count i) 0 <| .rd (.id i) fun _ =>
        .unlock (.slot i) <| .unlock .big .done

/-- nip47_session.c:138-184. -/
def createGo (fresh : Option Nat) (now timeout : Nat) : Prog :=
  .rd .rateCount fun c =>
    if c ≥ 10 then .unlock .big .done
    else .wr .rateCount (c + 1) <| .rd .max fun n => .rd .table fun _ => cleanup now (free (fun
      | none => .unlock .big .done
      | some i => fill fresh now timeout i) n 0) n 0

/-- nip47_session.c:131-184, after the connection text has been read. -/
def createBody (fresh : Option Nat) (now timeout : Nat) : Prog :=
  .lock .big <| .rd .rateStart fun w =>
    if now - w ≥ 1 then .wr .rateStart now <| .wr .rateCount 0 <| createGo fresh now timeout else createGo fresh now timeout

/-- nip47_session.c:115-185 `nostr_nip47_session_create`; `n` is the configured number of sessions, `good`: the text is a connection. -/
def create (n : Nat) (good : Bool) (fresh : Option Nat) (now timeout : Nat) : Prog :=
  let rest : Prog := if good then createBody fresh now timeout else .done
  .rd .inited fun v => if v = 0 then init n rest else rest

/-- The calls. -/
inductive Call
  | init (n : Nat)
  | create (n : Nat) (good : Bool) (fresh : Option Nat) (now timeout : Nat)
  | add (id maxPerms : Nat)
  | check (id now : Nat) (spend : Bool)
  | get (id now : Nat)
  | extend (id secs : Nat)
  | destroy (id : Nat)

/-- nip47_session.c:86-374. -/
def Call.prog : Call → Prog
  | .init n => Races.init n .done
  | .create n g f now to => Races.create n g f now to
  | .add id m => withSession id (Races.add m)
  | .check id now s => withSession id (Races.check now s)
  | .get id now => withSession id (getConn now)
  | .extend id s => withSession id (Races.extend s)
  | .destroy id => withSession id fun i => clear i .done

/-- The shared memory, who has which lock, and what is left of the call of each thread. -/
structure St where
  mem : Loc → Nat
  owner : Lock → Option Nat
  prog : Nat → Prog

def set {α β : Type} [DecidableEq α] (f : α → β) (a : α) (b : β) : α → β := fun x => if x = a then b else f x

/-- One step of thread `t`; if it is in no call it begins the call `c`. A thread whose lock is taken waits. -/
def step (s : St) (t : Nat) (c : Call) : St :=
  match s.prog t with
  | .done => { s with prog := set s.prog t c.prog }
  | .rd l k => { s with prog := set s.prog t (k (s.mem l)) }
  | .wr l v k => { s with mem := set s.mem l v, prog := set s.prog t k }
  | .lock m k => if s.owner m = none then { s with owner := set s.owner m (some t), prog := set s.prog t k } else s
  | .unlock m k => { s with owner := set s.owner m none, prog := set s.prog t k }

/-- A schedule. -/
def run (s : St) (sched : List (Nat × Call)) : St := sched.foldl (fun s x => step s x.1 x.2) s

/-- The start of the program: static variables are zero. -/
def start : St := ⟨fun _ => 0, fun _ => none, fun _ => .done⟩

end Nostr.Session.Races
