import Verif.Basic

/-!
# Random bytes from several threads with mbedTLS (src/key.c:51-209, 211-259; C194)

Any number of threads draw random bytes, on their own or inside `nostr_init`, which holds its own lock while it
draws. The generator is shared; every access to shared memory is a step of its own (sequential consistency), and
`mbedtls_ctr_drbg_random` is two steps: it reads the state of the generator and writes the next one. The generator's
answers are numbered by the state they are computed from: two answers with the same number are the same bytes.
-/

namespace Nostr.Keys.Rng
open Nostr

/-- A part of an answer: the number of the generator's answer and how many bytes were taken. -/
abbrev Part := Nat × Nat

/-- Where a thread is. `init` says that the bytes are drawn inside `nostr_init`; `n` is the length of the request, `len` what remains
and `got` what is in the buffer. -/
inductive Pc
  /-- outside these functions -/
  | idle
  /-- key.c:213 waiting for the lock of the context -/
  | initWait
  /-- key.c:215-228 that lock held, before an early return or the draw -/
  | initIn
  /-- key.c:216, 223, 229, 234, 246, 257 before that lock is given back -/
  | initEnd
  /-- key.c:166 waiting for the lock of the generator -/
  | wait (init : Bool) (n : Nat)
  /-- key.c:167 lock held, before the test of `rng_initialized` -/
  | test (init : Bool) (n : Nat)
  /-- key.c:170 before the seeding -/
  | seed (init : Bool) (n : Nat)
  /-- key.c:173 after a failing seeding, before both structures are freed -/
  | undo (init : Bool)
  /-- key.c:178 before `rng_initialized = 1` -/
  | mark (init : Bool) (n : Nat)
  /-- key.c:186 before the test of the loop -/
  | loop (init : Bool) (n len : Nat) (got : List Part)
  /-- key.c:188 inside `mbedtls_ctr_drbg_random`, which has read state `b` -/
  | draw (init : Bool) (n len : Nat) (got : List Part) (b : Nat)
  /-- key.c:175, 189, 195 before the lock is given back; `r` is the request with its answer, `none` a failure -/
  | unlock (init : Bool) (r : Option (Nat × List Part))
  deriving DecidableEq, Repr

/-- Shared state and threads. `flag` is `rng_initialized`; `seeded` whether the generator has been seeded; `next` its state; `acc` whether
`rng_entropy` holds an accumulator, `lost` how many were overwritten while they were held. Ghosts: `seedings` counts
the successful seedings, `log` the requests that were answered, with their answers. -/
structure St where
  ctxLock : Option Nat
  rngLock : Option Nat
  flag : Bool
  seeded : Bool
  next : Nat
  acc : Bool
  lost : Nat
  seedings : Nat
  log : List (Nat × List Part)
  pc : Nat → Pc

/-- The start of the process. -/
def start : St := ⟨none, none, false, false, 0, false, 0, 0, [], fun _ => .idle⟩

/-- Thread `i` moves to `p`. -/
def St.to (s : St) (i : Nat) (p : Pc) : St := { s with pc := fun j => if j = i then p else s.pc j }

/-- key.c:187: how much the next call asks for. -/
def chunk (max len : Nat) : Nat := if len > max then max else len

/-- One step of a thread. `locks` says whether the locks exist (`NOSTR_FEATURE_THREADING`, key.c:77-118; without it the functions
are empty), `max` is `MBEDTLS_CTR_DRBG_MAX_REQUEST`. The environment decides whether seeding and drawing succeed. In
`nostr_init` only what concerns the locks and the draw is kept (the rest is `Nostr.Keys.Ctx`). -/
inductive Step (locks : Bool) (max : Nat) : St → St → Prop
  | call (s i n) : s.pc i = .idle → Step locks max s (s.to i (.wait false n))
  | init (s i) : s.pc i = .idle → Step locks max s (s.to i .initWait)
  | initAcquire (s i) : s.pc i = .initWait → (locks = true → s.ctxLock = none) →
      Step locks max s ({ s with ctxLock := if locks then some i else s.ctxLock }.to i .initIn)
  /-- already initialised, or no context (key.c:215, 222) -/
  | initReturn (s i) : s.pc i = .initIn → Step locks max s (s.to i .initEnd)
  /-- `NC_CONTEXT_ENTROPY_SIZE` bytes -/
  | initDraw (s i) : s.pc i = .initIn → Step locks max s (s.to i (.wait true 32))
  | initLeave (s i) : s.pc i = .initEnd → Step locks max s ({ s with ctxLock := if locks then none else s.ctxLock }.to i .idle)
  | acquire (s i a n) : s.pc i = .wait a n → (locks = true → s.rngLock = none) →
      Step locks max s ({ s with rngLock := if locks then some i else s.rngLock }.to i (.test a n))
  | ready (s i a n) : s.pc i = .test a n → s.flag = true → Step locks max s (s.to i (.loop a n n []))
  /-- `mbedtls_entropy_init` and `mbedtls_ctr_drbg_init` -/
  | fresh (s i a n) : s.pc i = .test a n → s.flag = false →
      Step locks max s ({ s with acc := true, lost := s.lost + if s.acc then 1 else 0, seeded := false }.to i (.seed a n))
  | noSeed (s i a n) : s.pc i = .seed a n → Step locks max s (s.to i (.undo a))
  | seed (s i a n) : s.pc i = .seed a n →
      Step locks max s ({ s with seeded := true, seedings := s.seedings + 1 }.to i (.mark a n))
  | undo (s i a) : s.pc i = .undo a → Step locks max s ({ s with acc := false }.to i (.unlock a none))
  | mark (s i a n) : s.pc i = .mark a n → Step locks max s ({ s with flag := true }.to i (.loop a n n []))
  | full (s i a n got) : s.pc i = .loop a n 0 got → Step locks max s (s.to i (.unlock a (some (n, got))))
  | noDraw (s i a n len got) : s.pc i = .loop a n len got → len ≠ 0 → Step locks max s (s.to i (.unlock a none))
  | read (s i a n len got) : s.pc i = .loop a n len got → len ≠ 0 → Step locks max s (s.to i (.draw a n len got s.next))
  | write (s i a n len got b) : s.pc i = .draw a n len got b →
      Step locks max s ({ s with next := b + 1 }.to i (.loop a n (len - chunk max len) (got ++ [(b, chunk max len)])))
  | leave (s i a r) : s.pc i = .unlock a r →
      Step locks max s ({ s with rngLock := if locks then none else s.rngLock, log := s.log ++ r.toList }.to i (if a then .initEnd else .idle))

/-- States that an execution from `s` reaches. -/
inductive Reach (locks : Bool) (max : Nat) (s : St) : St → Prop
  | refl : Reach locks max s s
  | step {t u} : Reach locks max s t → Step locks max t u → Reach locks max s u

/-- A thread that holds the lock of the generator. -/
def Pc.inside : Pc → Bool
  | .test .. | .seed .. | .undo .. | .mark .. | .loop .. | .draw .. | .unlock .. => true
  | _ => false

/-- A thread that holds the lock of the context. -/
def Pc.outer : Pc → Bool
  | .initIn | .initEnd => true
  | .wait a _ | .test a _ | .seed a _ | .undo a | .mark a _ | .loop a _ _ _ | .draw a _ _ _ _ | .unlock a _ => a
  | _ => false

end Nostr.Keys.Rng
