import Verif.Event.Model

/-!
# Model of proof of work (src/nip13.c)

Memory allocation succeeds, except in parallel mining.  `int` targets are `Int`, nonces are `uint64_t` (wrap-around kept by `% 2^64`).
-/

namespace Nostr.Nip13
open Nostr Nostr.Event

/-- nip13.c:34-35: `while (b >>= 1) n++`; eight rounds are enough for a byte. -/
def shifts : Nat → UInt8 → Nat
  | 0, _ => 0
  | f + 1, b => if b >>> 1 = 0 then 0 else 1 + shifts f (b >>> 1)

/-- nip13.c:27-38 `zero_bits`. -/
def zeroBits (b : UInt8) : Nat := if b = 0 then 8 else 7 - shifts 8 b

/-- nip13.c:40-54 `nostr_nip13_calculate_difficulty` (the id has 32 bytes). -/
def difficulty : Bytes → Nat
  | [] => 0
  | b :: bs => if zeroBits b ≠ 8 then zeroBits b else 8 + difficulty bs

/-- Whether a tag is a nonce tag, nip13.c:63-64. -/
def isNonce (t : List Bytes) : Bool := t.head? == some (c!"nonce")

/-- nip13.c:56-71 `find_nonce_tag_index`. -/
def findNonce (tags : List (List Bytes)) : Option Nat := tags.findIdx? isNonce

/-- nip13.c:156-189: the existing tag after the update. Writing `values[1]` of a one-element array is
outside the array. -/
def updateNonce (t : List Bytes) (nonce : Nat) (target : Int) : Res (List Bytes) :=
  match t with
  | [] => .ub
  | [_] => .ub
  | v0 :: _ :: rest =>
      if target > 0 then .ok (v0 :: Num.decNat nonce :: Num.decInt target :: rest.drop 1)
      else .ok [v0, Num.decNat nonce]

/-- nip13.c:131-198 `nostr_nip13_add_nonce_tag`. -/
def addNonce (cfg : Option Config.Config) (e : Event) (nonce : Nat) (target : Int) : Res Event :=
  match findNonce e.tags with
  | some i =>
      updateNonce (e.tags.getD i []) nonce target >>= fun t => .ok { e with tags := e.tags.set i t }
  | none =>
      addTag cfg e (if target > 0 then [c!"nonce", Num.decNat nonce, Num.decInt target]
        else [c!"nonce", Num.decNat nonce])

/-- The surroundings of a mining run: configuration, hash, build, and the clock (`time(NULL)` in the
`k`-th iteration). -/
structure Env where
  cfg : Option Config.Config
  crypto : Crypto
  build : Build
  clock : Nat → Int

/-- nip13.c:222-242: the loop. `iter` counts the iterations; `none` means the loop is still running after
`fuel` iterations. -/
def mineLoop (E : Env) (target : Int) (maxIter : Nat) : Nat → Nat → Event → Option (Res Event)
  | 0, _, _ => none
  | fuel + 1, iter, e =>
      if maxIter = 0 ∨ iter < maxIter then
        match addNonce E.cfg e (iter % 2 ^ 64) target with
        | .ok e1 =>
            match computeId E.crypto E.build { e1 with createdAt := E.clock iter } with
            | .ok e2 => if (difficulty e2.id : Int) ≥ target then some (.ok e2)
                else mineLoop E target maxIter fuel (iter + 1) e2
            | .err x => some (.err x)
            | .ub => some .ub
        | .err x => some (.err x)
        | .ub => some .ub
      else some (.err .notFound)

/-- nip13.c:206-217: make sure there is a nonce tag. -/
def ensureNonce (cfg : Option Config.Config) (e : Event) (target : Int) : Res Event :=
  match findNonce e.tags with
  | some _ => .ok e
  | none => addNonce cfg e 0 target

/-- nip13.c:200-245 `nostr_nip13_mine_event`. -/
def mine (E : Env) (target : Int) (maxIter : Nat) (fuel : Nat) (e : Event) : Option (Res Event) :=
  if target < 1 then some (.err .invalidParam)
  else match ensureNonce E.cfg e target with
    | .ok e1 => mineLoop E target maxIter fuel 0 e1
    | .err x => some (.err x)
    | .ub => some .ub

/-- nip13.c:247-276 `nostr_nip13_verify_pow`. -/
def verifyPow (e : Event) (min : Int) : Res Unit :=
  if min < 1 then .err .invalidParam
  else match findNonce e.tags with
    | none => .err .invalidEvent
    | some i =>
        let t := e.tags.getD i []
        if t.length < 2 then .err .invalidEvent
        else if (difficulty e.id : Int) < min then .err .invalidEvent
        else if t.length ≥ 3 ∧ Num.atoi (t.getD 2 []) > 0 ∧ (difficulty e.id : Int) < Num.atoi (t.getD 2 []) then
          .err .invalidEvent
        else .ok ()

/-! ## Parallel mining -/

/-- Where a worker is in nip13.c:354-403. -/
inductive Pc
  /-- line 360: reading `*global_found` and comparing the iterations, without the lock -/
  | test
  /-- line 363: waiting for the lock -/
  | wait
  /-- line 364: lock held, about to recheck `*global_found` -/
  | recheck
  /-- line 369: about to set the nonce -/
  | nonce
  /-- line 375: about to set the time -/
  | time
  /-- line 377: about to compute the id -/
  | ident
  /-- line 383: about to compare the difficulty -/
  | judge
  /-- lines 370, 379, 388: about to unlock and leave -/
  | leave
  /-- line 392: about to unlock and go on -/
  | again
  | done
  deriving DecidableEq, Repr

/-- nip13.c:343-352 `mining_thread_data` and the worker's locals. -/
structure Worker where
  pc : Pc
  nonce : Nat
  iter : Nat
  found : Bool
  result : Nat
  deriving DecidableEq, Repr

/-- The shared state. `started` counts the workers already created (line 504), `failed` says that creating
one failed (line 514). -/
structure St where
  event : Event
  globalFound : Bool
  lock : Option Nat
  started : Nat
  failed : Bool
  workers : Nat → Worker

/-- Set worker `i`. -/
def St.set (s : St) (i : Nat) (w : Worker) : St :=
  { s with workers := fun j => if j = i then w else s.workers j }

/-- nip13.c:504-512: before any worker runs. -/
def start (e : Event) : St :=
  ⟨e, false, none, 0, false, fun i => ⟨.test, i, 0, false, 0⟩⟩

/-- nip13.c:155-195: what a call of `nostr_nip13_add_nonce_tag` that finds no memory can leave of the event: the old one (160-163,
191-194), the tag with its new nonce only (170-172, 182-185), or with a third value that is NULL (177, 182-185; written as
an empty text here). -/
inductive Halfway (e : Event) (nonce : Nat) : Event → Prop
  | same : Halfway e nonce e
  | nonce (pre : List (List Bytes)) (v0 v1 : Bytes) (rest : List Bytes) (post : List (List Bytes)) :
      e.tags = pre ++ (v0 :: v1 :: rest) :: post → findNonce e.tags = some pre.length →
      Halfway e nonce { e with tags := pre ++ (v0 :: Num.decNat nonce :: rest) :: post }
  | null (pre : List (List Bytes)) (v0 v1 : Bytes) (post : List (List Bytes)) :
      e.tags = pre ++ [v0, v1] :: post → findNonce e.tags = some pre.length →
      Halfway e nonce { e with tags := pre ++ [v0, Num.decNat nonce, []] :: post }

/-- One step of the main thread or of a worker, nip13.c:354-403 and 504-523; on Windows (nip13.c:281-341, 436-472) the same steps
with a critical section for the mutex. Each access to shared memory
is a separate step (sequentially consistent interleaving; the accesses of lines 369-383 happen under the
lock). The clock is arbitrary, and memory can run out in every call. Executions that run into undefined behaviour of `add_nonce_tag` or
`compute_id` stop. -/
inductive Step (cfg : Option Config.Config) (C : Crypto) (b : Build) (target : Int) (n maxIter : Nat) :
    St → St → Prop
  | create (s : St) : s.started < n → s.failed = false →
      Step cfg C b target n maxIter s { s with started := s.started + 1 }
  | createFails (s : St) : s.started < n → s.failed = false →
      Step cfg C b target n maxIter s { s with failed := true, globalFound := true }
  | stop (s : St) (i : Nat) : i < s.started → (s.workers i).pc = .test →
      s.globalFound = true ∨ ¬ (maxIter = 0 ∨ (s.workers i).iter < maxIter) →
      Step cfg C b target n maxIter s (s.set i { s.workers i with pc := .done })
  | goOn (s : St) (i : Nat) : i < s.started → (s.workers i).pc = .test →
      s.globalFound = false → (maxIter = 0 ∨ (s.workers i).iter < maxIter) →
      Step cfg C b target n maxIter s (s.set i { s.workers i with pc := .wait })
  | acquire (s : St) (i : Nat) : i < s.started → (s.workers i).pc = .wait → s.lock = none →
      Step cfg C b target n maxIter s ({ s with lock := some i }.set i { s.workers i with pc := .recheck })
  | recheck (s : St) (i : Nat) : i < s.started → (s.workers i).pc = .recheck →
      Step cfg C b target n maxIter s
        (s.set i { s.workers i with pc := if s.globalFound then .leave else .nonce })
  | setNonce (s : St) (i : Nat) (e : Event) : i < s.started → (s.workers i).pc = .nonce →
      addNonce cfg s.event (s.workers i).nonce target = .ok e →
      Step cfg C b target n maxIter s ({ s with event := e }.set i { s.workers i with pc := .time })
  | nonceFails (s : St) (i : Nat) (x : Err) : i < s.started → (s.workers i).pc = .nonce →
      addNonce cfg s.event (s.workers i).nonce target = .err x →
      Step cfg C b target n maxIter s (s.set i { s.workers i with pc := .leave })
  | setTime (s : St) (i : Nat) (t : Int) : i < s.started → (s.workers i).pc = .time →
      Step cfg C b target n maxIter s
        ({ s with event := { s.event with createdAt := t } }.set i { s.workers i with pc := .ident })
  | setId (s : St) (i : Nat) (e : Event) : i < s.started → (s.workers i).pc = .ident →
      computeId C b s.event = .ok e →
      Step cfg C b target n maxIter s ({ s with event := e }.set i { s.workers i with pc := .judge })
  | idFails (s : St) (i : Nat) (x : Err) : i < s.started → (s.workers i).pc = .ident →
      computeId C b s.event = .err x →
      Step cfg C b target n maxIter s (s.set i { s.workers i with pc := .leave })
  | nonceMemory (s : St) (i : Nat) (e : Event) : i < s.started → (s.workers i).pc = .nonce →
      Halfway s.event (s.workers i).nonce e →
      Step cfg C b target n maxIter s ({ s with event := e }.set i { s.workers i with pc := .leave })
  | idMemory (s : St) (i : Nat) : i < s.started → (s.workers i).pc = .ident →
      Step cfg C b target n maxIter s (s.set i { s.workers i with pc := .leave })
  | win (s : St) (i : Nat) : i < s.started → (s.workers i).pc = .judge →
      (difficulty s.event.id : Int) ≥ target →
      Step cfg C b target n maxIter s ({ s with globalFound := true }.set i
        { s.workers i with pc := .leave, found := true, result := (s.workers i).nonce })
  | lose (s : St) (i : Nat) : i < s.started → (s.workers i).pc = .judge →
      (difficulty s.event.id : Int) < target →
      Step cfg C b target n maxIter s (s.set i { s.workers i with pc := .again })
  | unlockLeave (s : St) (i : Nat) : i < s.started → (s.workers i).pc = .leave →
      Step cfg C b target n maxIter s ({ s with lock := none }.set i { s.workers i with pc := .done })
  | unlockAgain (s : St) (i : Nat) : i < s.started → (s.workers i).pc = .again →
      Step cfg C b target n maxIter s ({ s with lock := none }.set i
        { s.workers i with pc := .test, nonce := ((s.workers i).nonce + 1000) % 2 ^ 64,
                           iter := ((s.workers i).iter + 1) % 2 ^ 64 })

/-- Any number of steps. -/
inductive Steps (cfg : Option Config.Config) (C : Crypto) (b : Build) (target : Int) (n maxIter : Nat) :
    St → St → Prop
  | refl (s : St) : Steps cfg C b target n maxIter s s
  | tail {s t u : St} : Steps cfg C b target n maxIter s t → Step cfg C b target n maxIter t u →
      Steps cfg C b target n maxIter s u

/-- nip13.c:525-535: after joining all workers the call reports success when some worker has found. -/
def Success (n : Nat) (s : St) : Prop :=
  s.failed = false ∧ s.started = n ∧ (∀ i < n, (s.workers i).pc = .done) ∧ ∃ i < n, (s.workers i).found = true

/-- nip13.c:525-535: all workers have been joined and none has found. -/
def NotFound (n : Nat) (s : St) : Prop :=
  s.failed = false ∧ s.started = n ∧ (∀ i < n, (s.workers i).pc = .done) ∧ ∀ i < n, (s.workers i).found = false

/-- The call is about to return: nip13.c:515-520 (creating a worker failed) or 525-541 (all were created), all workers that
were created have been joined. -/
def Over (n : Nat) (s : St) : Prop :=
  (s.failed = true ∨ s.started = n) ∧ ∀ i < s.started, (s.workers i).pc = .done

end Nostr.Nip13
