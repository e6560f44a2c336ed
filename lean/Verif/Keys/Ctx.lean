import Verif.Basic

/-!
# Initialisation and clean-up from several threads (src/key.c:211-280), and the calls that use the context (C125)

Any number of threads; every access to shared memory is a step of its own (sequential consistency). This is
the noscrypt build; with secp256k1 alone the context is created in one step, which is the special case in
which `got` and `drawn` are passed without a failure.
-/

namespace Nostr.Keys.Ctx
open Nostr

/-- The global context (key.c:32): NULL, a pointer to a context that is not initialised, initialised. -/
inductive Context
  | null | raw | live
  deriving DecidableEq, Repr

/-- What a call tests before it calls `nostr_init`: the flag `ctx_initialized` (key.c:289, 447, 540, 627), the
pointer `nc_ctx` (event.c:600, 701, nip44.c:268, 385), nothing because it always calls `nostr_init`
(nip26.c:196, 291), nothing because it never does (hd_key.c:61, 160, nip17.c:136, 315, nip47.c:438, nip59.c:78, 369). -/
inductive Guard
  | flag | pointer | always | never
  deriving DecidableEq, Repr

/-- Where a thread is. `init` marks the places inside `nostr_init`; `use` says whether a use of the context
follows (a cryptographic call) or not (the application called `nostr_init` itself). -/
inductive Pc
  /-- outside the library -/
  | idle
  /-- a cryptographic call, before its guard -/
  | guard (g : Guard)
  /-- key.c:213 waiting for the lock -/
  | wait (use : Bool)
  /-- key.c:215 lock held, before the test of the flag -/
  | test (use : Bool)
  /-- key.c:221 before `nc_ctx = NCGetSharedContext()` -/
  | get (use : Bool)
  /-- key.c:228 before the entropy is drawn -/
  | draw (use : Bool)
  /-- key.c:233 before `NCInitContext` -/
  | setup (use : Bool)
  /-- key.c:256 before `ctx_initialized = 1` -/
  | mark (use : Bool)
  /-- before an unlock with the result of `nostr_init` -/
  | unlock (use ok : Bool)
  /-- about to use the context -/
  | use
  /-- key.c:263 waiting for the lock in `nostr_cleanup` -/
  | cleanWait
  /-- key.c:266-270 lock held, before the context is destroyed and set to NULL -/
  | cleanCtx
  /-- key.c:277 before `ctx_initialized = 0` -/
  | cleanMark
  /-- key.c:279 before the unlock -/
  | cleanUnlock
  deriving DecidableEq, Repr

/-- Shared state and threads. `setups` counts the successful `NCInitContext`. -/
structure St where
  ctx : Context
  flag : Bool
  lock : Option Nat
  setups : Nat
  pc : Nat → Pc

/-- The start of the process. -/
def start : St := ⟨.null, false, none, 0, fun _ => .idle⟩

/-- Thread `i` moves to `p`. -/
def St.to (s : St) (i : Nat) (p : Pc) : St := { s with pc := fun j => if j = i then p else s.pc j }

/-- One step of a thread (key.c:211-280 and the guards). `clean` says whether `nostr_cleanup` may be called.
The environment decides whether the shared context is available, the entropy is drawn and `NCInitContext`
succeeds. -/
inductive Step (clean : Bool) : St → St → Prop
  | call (s i g) : s.pc i = .idle → Step clean s (s.to i (.guard g))
  | init (s i) : s.pc i = .idle → Step clean s (s.to i (.wait false))
  | flagSet (s i) : s.pc i = .guard .flag → s.flag = true → Step clean s (s.to i .use)
  | flagClear (s i) : s.pc i = .guard .flag → s.flag = false → Step clean s (s.to i (.wait true))
  | pointerSet (s i) : s.pc i = .guard .pointer → s.ctx ≠ .null → Step clean s (s.to i .use)
  | pointerNull (s i) : s.pc i = .guard .pointer → s.ctx = .null → Step clean s (s.to i (.wait true))
  | always (s i) : s.pc i = .guard .always → Step clean s (s.to i (.wait true))
  | never (s i) : s.pc i = .guard .never → Step clean s (s.to i .use)
  | acquire (s i u) : s.pc i = .wait u → s.lock = none → Step clean s ({ s with lock := some i }.to i (.test u))
  | done (s i u) : s.pc i = .test u → s.flag = true → Step clean s (s.to i (.unlock u true))
  | fresh (s i u) : s.pc i = .test u → s.flag = false → Step clean s (s.to i (.get u))
  | noContext (s i u) : s.pc i = .get u → Step clean s ({ s with ctx := .null }.to i (.unlock u false))
  /-- `NCGetSharedContext` returns the address of a static context: not initialised as far as this code knows -/
  | context (s i u) : s.pc i = .get u → Step clean s ({ s with ctx := .raw }.to i (.draw u))
  | noEntropy (s i u) : s.pc i = .draw u → Step clean s (s.to i (.unlock u false))
  | entropy (s i u) : s.pc i = .draw u → Step clean s (s.to i (.setup u))
  | noSetup (s i u) : s.pc i = .setup u → Step clean s (s.to i (.unlock u false))
  | setup (s i u) : s.pc i = .setup u →
      Step clean s ({ s with ctx := .live, setups := s.setups + 1 }.to i (.mark u))
  | mark (s i u) : s.pc i = .mark u → Step clean s ({ s with flag := true }.to i (.unlock u true))
  | leave (s i u ok) : s.pc i = .unlock u ok →
      Step clean s ({ s with lock := none }.to i (if u && ok then .use else .idle))
  | use (s i) : s.pc i = .use → Step clean s (s.to i .idle)
  | cleanup (s i) : clean = true → s.pc i = .idle → Step clean s (s.to i .cleanWait)
  | cleanAcquire (s i) : s.pc i = .cleanWait → s.lock = none → Step clean s ({ s with lock := some i }.to i .cleanCtx)
  | cleanCtx (s i) : s.pc i = .cleanCtx → Step clean s ({ s with ctx := .null }.to i .cleanMark)
  | cleanMark (s i) : s.pc i = .cleanMark → Step clean s ({ s with flag := false }.to i .cleanUnlock)
  | cleanLeave (s i) : s.pc i = .cleanUnlock → Step clean s ({ s with lock := none }.to i .idle)

/-- States that an execution from `s` reaches. -/
inductive Reach (clean : Bool) (s : St) : St → Prop
  | refl : Reach clean s s
  | step {t u} : Reach clean s t → Step clean t u → Reach clean s u

/-- The calls in flight have one of the guards `gs`. -/
def Guards (gs : Guard → Prop) (s : St) : Prop := ∀ i g, s.pc i = .guard g → gs g

/-- An execution all of whose calls have guards in `gs`. -/
inductive Run (clean : Bool) (gs : Guard → Prop) (s : St) : St → Prop
  | refl : Run clean gs s s
  | step {t u} : Run clean gs s t → Step clean t u → Guards gs u → Run clean gs s u

/-- A thread inside the critical section. -/
def Pc.inside : Pc → Bool
  | .test _ | .get _ | .draw _ | .setup _ | .mark _ | .unlock _ _ | .cleanCtx | .cleanMark | .cleanUnlock => true
  | _ => false

end Nostr.Keys.Ctx
