import Verif.Config.Model

/-!
# The configuration used by several threads (src/config.c)

Any number of threads make configuration calls. A scheduler chooses the thread that does the next step; a structure is copied one
field at a time. In a build without `NOSTR_FEATURE_THREADING` locking and unlocking do nothing (config.c:35-54). The callback of an
update does nothing with the library (otherwise see C77) but is told the old and the new configuration. A call is recorded when it
gives back the lock; what `nostr_init` does after that (config.c:230) is only the answer given to the caller here, see C125.
-/

namespace Nostr.Config.Threads
open Nostr Nostr.Config

/-- Assignment of the `k`-th field of nostr_config (nostr.h) from `src` to `dst`. -/
def put (k : Nat) (src dst : Config) : Config :=
  match k with
  | 0 => { dst with nip44Min := src.nip44Min }
  | 1 => { dst with nip44Max := src.nip44Max }
  | 2 => { dst with maxSessions := src.maxSessions }
  | 3 => { dst with sessionTimeout := src.sessionTimeout }
  | 4 => { dst with maxPermissions := src.maxPermissions }
  | 5 => { dst with maxContent := src.maxContent }
  | 6 => { dst with maxTags := src.maxTags }
  | 7 => { dst with maxTagValues := src.maxTagValues }
  | 8 => { dst with connectTimeout := src.connectTimeout }
  | 9 => { dst with responseTimeout := src.responseTimeout }
  | 10 => { dst with encryptionNip := src.encryptionNip }
  | 11 => { dst with memoryLock := src.memoryLock }
  | 12 => { dst with debugMode := src.debugMode }
  | _ => dst

/-- What a call gives its caller. -/
inductive Ans
  /-- what the pointer returned by `nostr_config_get_current` points to; `none` for NULL -/
  | got (c : Option Config)
  /-- the code returned by the others, and the old and new configuration told to the callback -/
  | code (r : Res Unit) (told : Option (Config × Config))
  deriving DecidableEq, Repr

/-- Where a thread is. -/
inductive Pc
  /-- not in a configuration call -/
  | idle
  /-- before `lock_config` -/
  | ask (o : Op)
  /-- after it -/
  | enter (o : Op)
  /-- config.c:188, the copy for the caller -/
  | reading (k : Nat)
  /-- config.c:256, the copy of the old configuration -/
  | old (k : Nat) (c old : Config)
  /-- config.c:257 -/
  | writing (k : Nat) (c old : Config)
  /-- config.c:209 -/
  | first (k : Nat) (c : Config) (env : Env) (n : Res Unit)
  /-- config.c:211 -/
  | dflt (k : Nat) (env : Env) (n : Res Unit)
  /-- config.c:216 -/
  | environ (k : Nat) (env : Env) (n : Res Unit)
  /-- before `unlock_config` and the return -/
  | leave (o : Op) (a : Ans)

/-- config.c:14-17 and 33, the position of every thread, its own copy (config.c:184-187), and the calls that have returned. -/
structure Sys where
  g : Config
  init : Bool
  cb : Bool
  lock : Option Nat
  pc : Nat → Pc
  tls : Nat → Config
  done : List (Nat × Op × Ans)

/-- Thread `t` goes on at `p`. -/
def Sys.at (s : Sys) (t : Nat) (p : Pc) : Sys := { s with pc := fun u => if u = t then p else s.pc u }

/-- One step of thread `t`; a thread that is in no call makes the call `o`. `thr`: built with threads. -/
def step (thr : Bool) (s : Sys) (t : Nat) (o : Op) : Sys :=
  match s.pc t with
  | .idle => s.at t (.ask o)
  -- config.c:35-44
  | .ask o => if thr then (if s.lock.isSome then s else { s with lock := some t }.at t (.enter o)) else s.at t (.enter o)
  -- config.c:178-182
  | .enter .get => if s.init then s.at t (.reading 0) else s.at t (.leave .get (.got none))
  -- config.c:244-254; the argument belongs to the caller
  | .enter (.update c) =>
      if s.init then
        match validate c with
        | .ok () => s.at t (.old 0 c s.g)
        | r => s.at t (.leave (.update c) (.code r none))
      else s.at t (.leave (.update c) (.code (.err .notFound) none))
  -- config.c:195-215
  | .enter (.init c env n) =>
      if s.init then s.at t (.leave (.init c env n) (.code (.ok ()) none))
      else
        match c with
        | some c => match validate c with
            | .ok () => s.at t (.first 0 c env n)
            | r => s.at t (.leave (.init (some c) env n) (.code r none))
        | none => s.at t (.dflt 0 env n)
  -- config.c:234-238
  | .enter (.setCallback b) => { s with cb := b }.at t (.leave (.setCallback b) (.code (.ok ()) none))
  | .reading k =>
      if k < 13 then { s with tls := fun u => if u = t then put k s.g (s.tls u) else s.tls u }.at t (.reading (k + 1))
      else s.at t (.leave .get (.got (some (s.tls t))))
  | .old k c x => if k < 13 then s.at t (.old (k + 1) c (put k s.g x)) else s.at t (.writing 0 c x)
  -- after the last field config.c:259-261, the callback
  | .writing k c x =>
      if k < 13 then { s with g := put k c s.g }.at t (.writing (k + 1) c x)
      else s.at t (.leave (.update c) (.code (.ok ()) (if s.cb then some (x, s.g) else none)))
  -- after the last field config.c:228
  | .first k c env n =>
      if k < 13 then { s with g := put k c s.g }.at t (.first (k + 1) c env n)
      else { s with init := true }.at t (.leave (.init (some c) env n) (.code n none))
  | .dflt k env n =>
      if k < 13 then { s with g := put k defaults s.g }.at t (.dflt (k + 1) env n) else s.at t (.environ 0 env n)
  -- config.c:98-116, each setting is read and written back; then 221-228
  | .environ k env n =>
      if k < 13 then { s with g := put k (loadEnv env s.g) s.g }.at t (.environ (k + 1) env n)
      else
        match validate s.g with
        | .ok () => { s with init := true }.at t (.leave (.init none env n) (.code n none))
        | r => s.at t (.leave (.init none env n) (.code r none))
  -- config.c:46-54
  | .leave o a => { s with lock := if thr then none else s.lock, done := s.done ++ [(t, o, a)] }.at t .idle

/-- Everything that happens under a schedule: who does a step, and which call it makes if it is in none. -/
def run (thr : Bool) (s : Sys) (sched : List (Nat × Op)) : Sys := sched.foldl (fun s x => step thr s x.1 x.2) s

/-- The start of the program; `c` is the unused initial content. -/
def start (c : Config) : Sys := ⟨c, false, false, none, fun _ => .idle, fun _ => c, []⟩

end Nostr.Config.Threads
