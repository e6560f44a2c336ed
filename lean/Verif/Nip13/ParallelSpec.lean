import Verif.Nip13.Spec

/-! # Vocabulary for parallel mining: what was tried, how many steps, which accesses -/

namespace Nostr.Nip13.Spec
open Nostr Nostr.Event Nostr.Nip13

/-- What worker `i` compares with the target between `s` and `t`: the event, at most once. -/
def tried (s t : St) (i : Nat) : List Event :=
  if (s.workers i).pc = .judge ∧ (t.workers i).pc ≠ .judge then [s.event] else []

/-- Worker `i` gives up between `s` and `t` because setting the nonce or computing the id failed. -/
def gaveUp (s t : St) (i : Nat) : Bool :=
  ((s.workers i).pc == .nonce || (s.workers i).pc == .ident) && (t.workers i).pc == .leave

/-- A run from `s0` to `s` in which worker `i` has compared the events `att i` with the target and has given up if `bad i`. -/
inductive Hist (cfg : Option Config.Config) (C : Crypto) (b : Build) (target : Int) (n maxIter : Nat) (s0 : St) :
    (Nat → List Event) → (Nat → Bool) → St → Prop
  | start : Hist cfg C b target n maxIter s0 (fun _ => []) (fun _ => false) s0
  | step {att bad s t} : Hist cfg C b target n maxIter s0 att bad s → Step cfg C b target n maxIter s t →
      Hist cfg C b target n maxIter s0 (fun i => att i ++ tried s t i) (fun i => bad i || gaveUp s t i) t

/-- A run of exactly `k` steps. -/
inductive StepsN (cfg : Option Config.Config) (C : Crypto) (b : Build) (target : Int) (n maxIter : Nat) (s0 : St) : Nat → St → Prop
  | start : StepsN cfg C b target n maxIter s0 0 s0
  | step {k s t} : StepsN cfg C b target n maxIter s0 k s → Step cfg C b target n maxIter s t →
      StepsN cfg C b target n maxIter s0 (k + 1) t

/-- `e` is `e0` with the given nonce, and its id is computed from it. -/
structure Candidate (C : Crypto) (b : Build) (e0 : Event) (target : Int) (nonce : Nat) (e : Event) : Prop where
  id : ∃ text, serialize b e = .ok text ∧ e.id = C.sha256 text
  tags : NonceTags e0.tags e.tags nonce target
  pubkey : e.pubkey = e0.pubkey
  kind : e.kind = e0.kind
  content : e.content = e0.content
  sig : e.sig = e0.sig

/-- The nonce an event carries, as text. -/
def nonceText (e : Event) : Option Bytes := (e.tags.find? isNonce).bind fun t => t[1]?

/-- The memory the workers share. -/
inductive Loc
  | flag
  | event

/-- What a worker is about to write, nip13.c:354-403. -/
def writes (target : Int) (s : St) (i : Nat) : Loc → Prop
  | .event => (s.workers i).pc = .nonce ∨ (s.workers i).pc = .time ∨ (s.workers i).pc = .ident
  | .flag => (s.workers i).pc = .judge ∧ (difficulty s.event.id : Int) ≥ target

/-- What a worker is about to read or write. -/
def touches (target : Int) (s : St) (i : Nat) (l : Loc) : Prop :=
  writes target s i l ∨ match l with
    | .event => (s.workers i).pc = .judge
    | .flag => (s.workers i).pc = .test ∨ (s.workers i).pc = .recheck

/-- A data race: two workers are about to use the same memory, one of them to write it. -/
def Race (target : Int) (s : St) (l : Loc) : Prop :=
  ∃ i j, i ≠ j ∧ i < s.started ∧ j < s.started ∧ writes target s i l ∧ touches target s j l

end Nostr.Nip13.Spec
