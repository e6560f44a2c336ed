import Verif.Basic

/-!
# Threads, the library's own variables and its own locks

The library keeps a few variables of its own: the configuration (src/config.c:14-17), the text of the features (src/features.c:107-108),
the contexts of the cryptography (src/key.c:31-37), the random generator (src/key.c:120-122) and the wallet sessions
(src/nip47_session.c:29-37). Every call of every thread shares them. This file models what calls do to these variables and to the locks
(config.c:31, key.c:52, key.c:73, nip47_session.c:26 and 31) and nothing else: all other memory is that of the arguments of a call.

A function is a program of `Prog`. Values are followed for flags only; all other decisions are taken arbitrarily (`alt`, `many`).
-/

namespace Nostr.Shared

/-- The library's locks: src/nip47_session.c:31 (`sessions_lock`), :26 (`lock` of each session), src/config.c:31 (`config_lock`),
src/key.c:52 (`ctx_init_lock`), src/key.c:73 (`rng_lock`). -/
inductive Lock where
  | table | session | config | context | random
  deriving DecidableEq, Repr

/-- The library's variables: src/config.c:14-17, src/features.c:107-108, src/key.c:31-37 and 120-122, src/nip47_session.c:29-37, and
the members of a session (src/nip47_session.c:17-27). A pointer stands for itself and for what it points to; `random` is the generator
with its entropy. The copy of the configuration (src/config.c:186) belongs to its thread and is left out, as are tables of constants. -/
inductive Var where
  | config | configInit | callback | callbackData
  | featureText | featureInit
  | contextInit | ncContext | secpContext
  | random | randomInit
  | table | tableSize | tableInit | rateWindow | rateCount
  | sActive | sId | sConnection | sPermissions | sCount | sCreated | sUsed | sExpires
  deriving DecidableEq, Repr

/-- Members of a session: there is one of each for every session (src/nip47_session.c:17-27). -/
def Var.ofSession : Var → Bool
  | .sActive | .sId | .sConnection | .sPermissions | .sCount | .sCreated | .sUsed | .sExpires => true
  | _ => false

/-- What a function does to the library's variables and locks. `test v a b` is `if (v) a else b` for a flag, `set` assigns a flag,
`pick` chooses the session to which members and the lock of a session refer from then on, `user` is a call of a function of the
application, which may call the library. -/
inductive Prog where
  | skip
  | lock (l : Lock)
  | unlock (l : Lock)
  | read (v : Var)
  | write (v : Var)
  | set (v : Var) (b : Bool)
  | test (v : Var) (a b : Prog)
  | seq (a b : Prog)
  | alt (a b : Prog)
  | many (a : Prog)
  | pick
  | call (f : Nat)
  | user
  deriving DecidableEq, Repr

/-- A function of the library; `entry` says whether a thread may begin with it: a public function, or one a thread is started with
(src/nip13.c:292-354, src/relay.c). -/
structure Fn where
  name : String
  entry : Bool
  body : Prog
  deriving Repr

/-- A thread: what it has still to do, and the session it works on. A thread with nothing to do is outside the library. -/
structure Thread where
  todo : List Prog
  cur : Nat

/-- All threads, the owner of every lock (locks of sessions are numbered, the others have number 0) and the values of the flags. -/
structure World where
  threads : Nat → Thread
  owner : Lock → Nat → Option Nat
  flag : Var → Bool

/-- The number of the lock a thread means. -/
def Thread.num (t : Thread) (l : Lock) : Nat := if l = .session then t.cur else 0

/-- Thread `i` goes on with `p`. -/
def World.goto (w : World) (i : Nat) (p : List Prog) : World :=
  { w with threads := fun j => if j = i then ⟨p, (w.threads i).cur⟩ else w.threads j }

/-- Change of the owner of a lock: pthread_mutex_lock, pthread_mutex_unlock. -/
def World.own (w : World) (l : Lock) (n : Nat) (o : Option Nat) : World :=
  { w with owner := fun l' n' => if l' = l ∧ n' = n then o else w.owner l' n' }

/-- Assignment of a flag. -/
def World.assign (w : World) (v : Var) (b : Bool) : World :=
  { w with flag := fun v' => if v' = v then b else w.flag v' }

/-- Another session is looked at. -/
def World.choose (w : World) (i : Nat) (n : Nat) : World :=
  { w with threads := fun j => if j = i then ⟨(w.threads i).todo, n⟩ else w.threads j }

/-- The body of a function of the library. -/
def bodyOf (fns : List Fn) (f : Nat) : Prog :=
  match fns[f]? with
  | some d => d.body
  | none => .skip

/-- A function with which a thread may begin. -/
def entryOf (fns : List Fn) (f : Nat) : Bool :=
  match fns[f]? with
  | some d => d.entry
  | none => false

/-- One step of thread `i`; `c` stands for everything that is not determined: which call is made, which way is taken, which session is
meant. A lock that is taken cannot be taken by anybody, its owner included (PTHREAD_MUTEX_INITIALIZER, not recursive); a lock can
be given back by its owner only. -/
def next (fns : List Fn) (c i : Nat) (w : World) : Option World :=
  match (w.threads i).todo with
  | [] => if entryOf fns c then some (w.goto i [bodyOf fns c]) else none
  | .skip :: k => some (w.goto i k)
  | .lock l :: k =>
    if w.owner l ((w.threads i).num l) = none then some ((w.own l ((w.threads i).num l) (some i)).goto i k) else none
  | .unlock l :: k =>
    if w.owner l ((w.threads i).num l) = some i then some ((w.own l ((w.threads i).num l) none).goto i k) else none
  | .read _ :: k => some (w.goto i k)
  | .write _ :: k => some (w.goto i k)
  | .set v b :: k => some ((w.assign v b).goto i k)
  | .test v a b :: k => some (w.goto i ((if w.flag v then a else b) :: k))
  | .seq a b :: k => some (w.goto i (a :: b :: k))
  | .alt a b :: k => some (w.goto i ((if c = 0 then a else b) :: k))
  | .many a :: k => some (w.goto i (if c = 0 then k else a :: .many a :: k))
  | .pick :: k => some ((w.goto i k).choose i c)
  | .call f :: k => some (w.goto i (bodyOf fns f :: k))
  | .user :: k =>
    if c = 0 then some (w.goto i k)
    else if entryOf fns (c - 1) then some (w.goto i (bodyOf fns (c - 1) :: .user :: k)) else none

/-- The variable a thread is about to read or write, and whether it writes it. -/
def Thread.access (t : Thread) : Option (Var × Bool) :=
  match t.todo with
  | .read v :: _ => some (v, false)
  | .write v :: _ => some (v, true)
  | .set v _ :: _ => some (v, true)
  | .test v _ _ :: _ => some (v, false)
  | _ => none

end Nostr.Shared
