import Verif.Config.Props

/-! # The configuration against CONFIG.md

A model of the calls CONFIG.md and include/nostr.h describe, with the notifications that reach the
application, and the documented ranges, defaults and effects beside it. -/

namespace Nostr.Config.Doc
open Nostr Nostr.Config Nostr.Config.Spec

/-- A notification as the application receives it (config.c:259-261): the function called (a name), its
`user_data`, and the two configurations. -/
structure Notice where
  fn : Nat
  data : Nat
  old : Config
  new : Config
  deriving DecidableEq

/-- What the library keeps (config.c:14-17 `g_config`, `g_config_initialized`, `g_config_callback`,
`g_config_callback_user_data`; key.c `ctx_initialized` as `ready`) and the notifications made so far.
Simplified: one thread, callbacks that return without calling the library (C77, C186 treat the others). -/
structure Lib where
  cfg : Config
  inited : Bool
  ready : Bool
  cb : Option Nat
  data : Nat
  log : List Notice

/-- The calls. `back` is what creating the contexts of the crypto libraries results in when it is tried
(key.c:221-258). -/
inductive Call
  | init (back : Res Unit)
  | cleanup
  | initWith (c : Option Config) (env : Env) (back : Res Unit)
  | setCallback (fn : Option Nat) (data : Nat)
  | update (c : Option Config)
  | get

/-- What a call returns. -/
inductive Ret
  | code (r : Res Unit)
  | config (c : Option Config)
  deriving DecidableEq

/-- key.c:211-259 `nostr_init`: nothing when the contexts exist, else they are created. -/
def init (s : Lib) (back : Res Unit) : Lib × Res Unit :=
  if s.ready then (s, .ok ())
  else match back with
    | .ok () => ({ s with ready := true }, .ok ())
    | e => (s, e)

/-- One call: key.c:211-259 `nostr_init`, key.c:261-281 `nostr_cleanup` (the contexts go, the
configuration stays), config.c:193-231 `nostr_init_with_config`, config.c:233-239
`nostr_config_set_callback`, config.c:241-266 `nostr_config_update`, config.c:177-191
`nostr_config_get_current`. -/
def call (s : Lib) : Call → Lib × Ret
  | .init back => ((init s back).1, .code (init s back).2)
  | .cleanup => ({ s with ready := false }, .code (.ok ()))
  | .initWith c env back =>
      if s.inited then (s, .code (.ok ()))
      else match c with
        | some c => match validate c with
            | .ok () =>
                let r := init { s with cfg := c, inited := true } back
                (r.1, .code r.2)
            | e => (s, .code e)
        | none => match validate (loadEnv env defaults) with
            | .ok () =>
                let r := init { s with cfg := loadEnv env defaults, inited := true } back
                (r.1, .code r.2)
            | e => ({ s with cfg := loadEnv env defaults }, .code e)
  | .setCallback fn data => ({ s with cb := fn, data := data }, .code (.ok ()))
  | .update none => (s, .code (.err .invalidParam))
  | .update (some c) =>
      if !s.inited then (s, .code (.err .notFound))
      else match validate c with
        | .ok () =>
            let s' := { s with cfg := c }
            match s.cb with
            | some f => ({ s' with log := s'.log ++ [⟨f, s.data, s.cfg, c⟩] }, .code (.ok ()))
            | none => (s', .code (.ok ()))
        | e => (s, .code e)
  | .get => (s, .config (if s.inited then some s.cfg else none))

/-- The library after a history of calls. -/
def run (s : Lib) (l : List Call) : Lib := l.foldl (fun s o => (call s o).1) s

/-- Program start (config.c:14-17): nothing initialised; the bytes of `g_config` do not matter. -/
def start (c : Config) : Lib := ⟨c, false, false, none, 0, []⟩

/-! ## The documentation -/

/-- CONFIG.md "Validation Rules", word for word: every value within the documented bounds. -/
def Documented (c : Config) : Prop :=
  (1 ≤ c.nip44Min ∧ c.nip44Min ≤ 65535) ∧ (1 ≤ c.nip44Max ∧ c.nip44Max ≤ 65535) ∧
  (1 ≤ c.maxSessions ∧ c.maxSessions ≤ 10000) ∧
  (60 ≤ c.sessionTimeout ∧ c.sessionTimeout ≤ 86400) ∧
  (1 ≤ c.maxPermissions ∧ c.maxPermissions ≤ 1000) ∧
  (1024 ≤ c.maxContent ∧ c.maxContent ≤ 1024 * 1024) ∧
  (1 ≤ c.maxTags ∧ c.maxTags ≤ 1000) ∧ (1 ≤ c.maxTagValues ∧ c.maxTagValues ≤ 1000) ∧
  (1000 ≤ c.connectTimeout ∧ c.connectTimeout ≤ 300000) ∧
  (1000 ≤ c.responseTimeout ∧ c.responseTimeout ≤ 300000) ∧
  (c.encryptionNip = 4 ∨ c.encryptionNip = 44) ∧
  (c.memoryLock = 0 ∨ c.memoryLock = 1) ∧ (c.debugMode = 0 ∨ c.debugMode = 1)

instance (c : Config) : Decidable (Documented c) := by unfold Documented; infer_instance

/-- CONFIG.md "Configuration Structure" and "Environment Variables": the variable of each setting and
its documented default. -/
def settings : List (Bytes × (Config → Int) × Int) :=
  [(c!"NOSTR_NIP44_MIN_SIZE", fun c => c.nip44Min, 1),
   (c!"NOSTR_NIP44_MAX_SIZE", fun c => c.nip44Max, 65535),
   (c!"NOSTR_MAX_SESSIONS", fun c => c.maxSessions, 100),
   (c!"NOSTR_SESSION_TIMEOUT", fun c => c.sessionTimeout, 3600),
   (c!"NOSTR_MAX_PERMISSIONS", fun c => c.maxPermissions, 32),
   (c!"NOSTR_MAX_CONTENT_SIZE", fun c => c.maxContent, 65536),
   (c!"NOSTR_MAX_TAGS", fun c => c.maxTags, 100),
   (c!"NOSTR_MAX_TAG_VALUES", fun c => c.maxTagValues, 50),
   (c!"NOSTR_RELAY_CONNECT_TIMEOUT", fun c => c.connectTimeout, 30000),
   (c!"NOSTR_RELAY_RESPONSE_TIMEOUT", fun c => c.responseTimeout, 10000),
   (c!"NOSTR_ENCRYPTION_DEFAULT", fun c => c.encryptionNip, 44),
   (c!"NOSTR_SECURE_MEMORY_LOCK", fun c => c.memoryLock, 0),
   (c!"NOSTR_DEBUG", fun c => c.debugMode, 0)]

/-- The environment asks for the configuration `c`: each variable is exported with the value `c` has
for its setting, or is not exported and `c` has the documented default there. -/
def Asks (env : Env) (c : Config) : Prop :=
  ∀ v ∈ settings, env v.1 = some (Num.decInt (v.2.1 c)) ∨ (env v.1 = none ∧ v.2.1 c = v.2.2)

/-- The configuration that `nostr_config_get_current` reports. -/
def inForce (s : Lib) : Option Config :=
  match (call s .get).2 with
  | .config c => c
  | .code _ => none

/-- The function and data of the last `nostr_config_set_callback` of a history, if it named one. -/
def registered (l : List Call) : Option (Nat × Nat) :=
  match l.reverse.findSome? (fun o => match o with | .setCallback f d => some (f, d) | _ => none) with
  | some (some f, d) => some (f, d)
  | _ => none

/-- The notifications the documentation promises for the last call `o` of a history `l ++ [o]`: an
update that replaces `old` tells the registered function, once, both configurations. -/
def Promised (c0 : Config) (l : List Call) (o : Call) (ns : List Notice) : Prop :=
  (∀ new old f d, o = .update (some new) → (call (run (start c0) l) o).2 = .code (.ok ()) →
    inForce (run (start c0) l) = some old → registered l = some (f, d) → ns = [⟨f, d, old, new⟩]) ∧
  (((∀ new, o ≠ .update (some new)) ∨ (call (run (start c0) l) o).2 ≠ .code (.ok ()) ∨ registered l = none) → ns = [])

end Nostr.Config.Doc
