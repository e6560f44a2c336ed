import Verif.Nip13.Spec

/-! # The program examples/nip13_example.c

It makes an event, mines it and prints what came out. What it takes from elsewhere (its arguments, the key it has generated, the clock) is a
parameter. Memory allocation succeeds, except in parallel mining. -/

namespace Nostr.Nip13.Example
open Nostr Nostr.Event Nostr.Nip13

/-- examples/nip13_example.c:11-27: the target and whether to use threads, from the arguments after the program's name; `none` is the exit
with the usage. -/
def settings : List Bytes → Option (Int × Bool)
  | [] => some (8, false)
  | d :: rest =>
      if Num.atoi d < 1 ∨ Num.atoi d > 32 then none
      else some (Num.atoi d, match rest with | [] => false | u :: _ => decide (Num.atoi u ≠ 0))

/-- examples/nip13_example.c:62. -/
def words : Bytes := c!"It's just me mining my own business"

/-- examples/nip13_example.c:52-72: the event before mining; `key` is the generated public key, `now` the clock. -/
def prepare (cfg : Option Config.Config) (key : Bytes) (now : Int) (target : Int) : Res Event :=
  addNonce cfg { zero with kind := 1, pubkey := key, createdAt := now, content := some words } 0 target

/-- examples/nip13_example.c:77-81 with nip13.c:200-245 and 406-554: how mining without a bound on the iterations can end, alone or with
threads; in a build without threads both calls mine alone (nip13.c:548-553). With threads, every error is possible (simplified). A call that
does not return has no result here. -/
inductive Mining (E : Env) (target : Int) (e : Event) : Bool → Res Event → Prop
  | alone (threads : Bool) (fuel : Nat) (r : Res Event) : mine E target 0 fuel e = some r → Mining E target e threads r
  | together (n : Nat) (e1 : Event) (s : St) : ensureNonce E.cfg e target = .ok e1 →
      Steps E.cfg E.crypto E.build target n 0 (start e1) s → Success n s → Mining E target e true (.ok s.event)
  | fails (x : Err) : Mining E target e true (.err x)

/-- What is on the screen after mining, and the exit status. -/
structure Screen where
  /-- "Successfully mined event" (line 87) -/
  mined : Bool
  /-- "Achieved difficulty" (line 92) -/
  achieved : Option Nat
  /-- "Event ID" (line 99) -/
  id : Option Bytes
  /-- "Proof of work verification": PASSED or FAILED (lines 103, 105) -/
  passed : Option Bool
  /-- "Mined event JSON" (line 111) -/
  json : Option Bytes
  exit : Nat
  deriving DecidableEq, Repr

/-- examples/nip13_example.c:91-113 and 123: after the id has been computed again. The status of the verification is overwritten by that of
writing the event as JSON. -/
def tell (b : Build) (target : Int) (e : Event) : Res Screen :=
  match toJson b e with
  | .ub => .ub
  | .err _ => .ok ⟨true, some (difficulty e.id), some (Hex.hexEncode e.id), some (decide (verifyPow e target = .ok ())), none, 1⟩
  | .ok j => .ok ⟨true, some (difficulty e.id), some (Hex.hexEncode e.id), some (decide (verifyPow e target = .ok ())), some j, 0⟩

/-- examples/nip13_example.c:86-123. -/
def report (C : Crypto) (b : Build) (target : Int) : Res Event → Res Screen
  | .ub => .ub
  | .err _ => .ok ⟨false, none, none, none, none, 1⟩
  | .ok e => match computeId C b e with
      | .ub => .ub
      | .err _ => .ok ⟨true, none, none, none, none, 1⟩
      | .ok e' => tell b target e'

/-- A run of the program that gets to mining, with what it shows. -/
def Shows (E : Env) (key : Bytes) (now : Int) (args : List Bytes) (o : Res Screen) : Prop :=
  ∃ target threads e r, settings args = some (target, threads) ∧ prepare E.cfg key now target = .ok e ∧
    Mining E target e threads r ∧ o = report E.crypto E.build target r

end Nostr.Nip13.Example
