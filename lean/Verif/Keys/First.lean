import Verif.Basic

/-! # Calls before, between and after initialisation

The contexts of the two cryptographic libraries (src/key.c:30-37), `nostr_init` and `nostr_cleanup` (src/key.c:211-280),
and for every public function that uses a context the order in which it tests, initialises and uses it. One thread;
several threads are in `Verif/Keys/Ctx.lean`. -/

namespace Nostr.Keys.First
open Nostr

/-- `nc_ctx` (key.c:32): NULL, the shared context before `NCInitContext`, the context after it. -/
inductive Nc
  | null | raw | live
  deriving DecidableEq, Repr

/-- The variables of key.c:30-37: `nc_ctx`, whether `secp256k1_ctx` is set, `ctx_initialized`. -/
structure Ctx where
  nc : Nc
  secp : Bool
  flag : Bool
  deriving DecidableEq, Repr

/-- The build: `HAVE_NOSCRYPT`, `HAVE_SECP256K1`. -/
structure Mode where
  noscrypt : Bool
  secp256k1 : Bool

/-- key.c:32-37: the process starts. -/
def start : Ctx := ⟨.null, false, false⟩

/-- What the libraries answer during one `nostr_init`: `NCGetSharedContext`, the random bytes, `NCInitContext`,
`secp256k1_context_create`. -/
structure Luck where
  shared : Bool
  entropy : Bool
  setup : Bool
  create : Bool

/-- key.c:239-257, the second half of `nostr_init`. -/
def initSecp (m : Mode) (l : Luck) (c : Ctx) : Bool × Ctx :=
  if m.secp256k1 then
    if l.create then (true, { c with secp := true, flag := true })
    else (false, { c with secp := false, nc := if m.noscrypt then .null else c.nc })
  else if m.noscrypt then (true, { c with flag := true })
  else (false, c)

/-- key.c:211-259 `nostr_init`: whether it succeeds, and the contexts afterwards. -/
def init (m : Mode) (l : Luck) (c : Ctx) : Bool × Ctx :=
  if c.flag then (true, c)
  else if m.noscrypt then
    if l.shared then
      if l.entropy && l.setup then initSecp m l { c with nc := .live }
      else (false, { c with nc := .raw })
    else (false, { c with nc := .null })
  else initSecp m l c

/-- key.c:261-280 `nostr_cleanup`. -/
def cleanup (m : Mode) (c : Ctx) : Ctx :=
  { nc := if m.noscrypt then .null else c.nc, secp := if m.secp256k1 then false else c.secp, flag := false }

/-- What a function does with the contexts. `key`: `#ifdef HAVE_NOSCRYPT` (or `NOSTR_FEATURE_CRYPTO_NOSCRYPT`, which is the
same in the files that are compiled, C199) noscrypt, otherwise secp256k1; `secp`: secp256k1 in every build. -/
inductive Act
  /-- `if (!ctx_initialized) nostr_init()` -/
  | flag
  /-- `if (!nc_ctx) nostr_init()`, or `if (!secp256k1_ctx)` without noscrypt -/
  | pointer
  /-- `nostr_init()` -/
  | always
  | key
  | secp
  deriving DecidableEq, Repr

/-- How a call ends or goes on. -/
inductive Out
  /-- everything was in order (the call goes on) -/
  | fine
  /-- `nostr_init` failed and the call returned its error -/
  | noInit
  /-- noscrypt was given NULL and refused; the call returned an error, whatever the arguments -/
  | refused
  /-- noscrypt was given a context that was never initialised -/
  | unset
  /-- secp256k1 was given NULL, which it does not test -/
  | crash
  deriving DecidableEq, Repr

/-- A lazy initialisation. -/
def lazily (m : Mode) (l : Luck) (need : Bool) (c : Ctx) : Out × Ctx :=
  if need then
    match init m l c with
    | (true, c') => (.fine, c')
    | (false, c') => (.noInit, c')
  else (.fine, c)

/-- A use of noscrypt. -/
def useNc (c : Ctx) : Out := match c.nc with
  | .null => .refused
  | .raw => .unset
  | .live => .fine

/-- A use of secp256k1. -/
def useSecp (c : Ctx) : Out := if c.secp then .fine else .crash

/-- One step of a call. -/
def step (m : Mode) (l : Luck) (c : Ctx) : Act → Out × Ctx
  | .flag => lazily m l (!c.flag) c
  | .pointer => lazily m l (if m.noscrypt then decide (c.nc = .null) else !c.secp) c
  | .always => lazily m l true c
  | .key => (if m.noscrypt then useNc c else useSecp c, c)
  | .secp => (useSecp c, c)

/-- The steps of a call one after another, until one of them ends it. -/
def steps (m : Mode) : List (Act × Luck) → Ctx → Out × Ctx
  | [], c => (.fine, c)
  | (a, l) :: as, c => match step m l c a with
    | (.fine, c') => steps m as c'
    | r => r

/-- The public functions that use a context, directly or through others. `hardened` is what the derivation index asks
for. -/
inductive Call
  | keyGenerate | ecdh | keypairGenerate | keypairFromKey | keypairFromHex | keypairValidate
  | sign | verify
  | delegationCreate | delegationVerify | delegationCheck
  | nip44Encrypt | nip44Decrypt | nip04Encrypt | nip04Decrypt
  | nip17Seal | nip17Wrap | nip17Send | nip17Unwrap
  | nip59Wrap | nip59Unwrap | nip59Seal | nip59GiftWrap
  | nip46Parse | nip46Respond
  | nip47Request | nip47Response | nip47Notification
  | listToEvent | listFromEvent
  | validateFull | zapVerify
  | hdFromSeed | hdDerive (hardened : Bool) | hdPath (hardened : List Bool) | mnemonicToKeypair (hardened : List Bool)
  deriving DecidableEq, Repr

/-- hd_key.c:101-206 `nostr_hd_key_derive`: 118 and 124 unless hardened, 145, 160 (or 174-190). -/
def derive (hardened : Bool) : List Act := (if hardened then [] else [.secp, .secp]) ++ [.secp, .key]

/-- event.c:593-688 `nostr_event_sign`: 600, 611, 630 (or 640, 648-676). -/
def signActs : List Act := [.pointer, .key, .key]
/-- event.c:694-760 `nostr_event_verify`: 701, 724 (or 729, 750-754). -/
def verifyActs : List Act := [.pointer, .key]
/-- nip44.c:268-310, 326 `nostr_nip44_encrypt`. -/
def encryptActs : List Act := [.pointer, .key, .key]
/-- nip44.c:385, 435, 458 `nostr_nip44_decrypt`. -/
def decryptActs : List Act := [.pointer, .key, .key]
/-- key.c:289, 308-320 (or 340-367) `nostr_key_generate`; the loop over the attempts (301-316) uses the context once or
more often, which makes no difference. -/
def generateActs : List Act := [.flag, .key, .key]
/-- nip17.c:92-195 `nostr_nip17_create_seal`: 108, 136, 187; nip59.c:328-429 `nostr_nip59_create_seal`: 346, 369, 421. -/
def sealActs : List Act := encryptActs ++ [.key] ++ signActs
/-- nip17.c:197-290 `nostr_nip17_create_gift_wrap`: 211, 222, 281; nip59.c:431-539 `nostr_nip59_create_gift_wrap`: 447, 460,
530. -/
def wrapActs : List Act := generateActs ++ encryptActs ++ signActs

/-- What each function does with the contexts, in order, with the functions it calls in place of the calls. A call may end
before (because of its arguments, of memory and so on). -/
def Call.acts : Call → List Act
  | .keyGenerate | .keypairGenerate => generateActs                   -- key.c:283-376, 505-517
  | .ecdh => [.flag, .key]                                            -- key.c:447, 462 (or 478-482)
  | .keypairFromKey | .keypairFromHex => [.flag, .key, .key]          -- key.c:540, 555-561 (or 571-589), 531
  | .keypairValidate => [.flag, .key, .key]                           -- key.c:627, 642-647 (or 658-674)
  | .sign => signActs
  | .verify => verifyActs
  | .delegationCreate => [.always, .key, .key]                        -- nip26.c:196, 213-226 (or 236-256)
  | .delegationVerify | .delegationCheck => [.always, .key]           -- nip26.c:291, 304 (or 309-312), 436
  | .nip44Encrypt => encryptActs
  | .nip44Decrypt => decryptActs
  | .nip04Encrypt | .nip04Decrypt => [.flag, .key]                    -- nip44.c:519, 631
  | .nip17Seal | .nip59Seal => sealActs
  | .nip17Wrap | .nip59GiftWrap => wrapActs
  | .nip17Send => [.key] ++ sealActs ++ wrapActs                      -- nip17.c:315, 382, 388
  | .nip17Unwrap | .nip59Unwrap => decryptActs ++ verifyActs ++ decryptActs   -- nip17.c:412, 430, 443; nip59.c:239, 259, 271
  | .nip59Wrap => [.key] ++ encryptActs ++ signActs ++ wrapActs       -- nip59.c:78, 111, 132, 139, 154, 209
  | .nip46Parse => decryptActs                                        -- nip46.c:30
  | .nip46Respond => encryptActs ++ signActs                          -- nip46.c:107, 141
  | .nip47Request => [.key] ++ encryptActs ++ signActs                -- nip47.c:438, 524, 546
  | .nip47Response | .nip47Notification => decryptActs                -- nip47.c:595, 802
  | .listToEvent => encryptActs                                       -- nip51.c:544
  | .listFromEvent => decryptActs                                     -- nip51.c:813
  | .validateFull | .zapVerify => verifyActs                          -- relay_protocol.c:499, zap.c:263
  | .hdFromSeed => [.key]                                             -- hd_key.c:61 (or 74-87)
  | .hdDerive h => derive h
  | .hdPath hs => hs.flatMap derive                                   -- hd_key.c:208-274
  | .mnemonicToKeypair hs => [.key] ++ hs.flatMap derive              -- hd_key.c:578, 588

/-- One thing the program does: `nostr_init`, `nostr_cleanup`, or a call that gets as far as its `k`-th step, with the
answers of the libraries. -/
inductive Op
  | init (l : Luck)
  | cleanup
  | call (f : Call) (k : Nat) (l : Nat → Luck)

/-- The steps of a call with the answers for each. -/
def Call.plan (f : Call) (k : Nat) (l : Nat → Luck) : List (Act × Luck) :=
  (f.acts.zipIdx.map fun p => (p.1, l p.2)).take k

/-- What an operation leads to. -/
def Op.run (m : Mode) (c : Ctx) : Op → Out × Ctx
  | .init l => match First.init m l c with
    | (true, c') => (.fine, c')
    | (false, c') => (.noInit, c')
  | .cleanup => (.fine, First.cleanup m c)
  | .call f k l => steps m (f.plan k l) c

/-- The contexts after a history. -/
def after (m : Mode) (c : Ctx) : List Op → Ctx
  | [] => c
  | o :: os => after m (o.run m c).2 os

end Nostr.Keys.First
