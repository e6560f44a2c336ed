import Verif.Num

/-! # Model of the library configuration (src/config.c) -/

namespace Nostr.Config
open Nostr

/-- include/nostr.h:85-99 `nostr_config` (`uint32_t` fields as `Nat`, `int` fields as `Int`). -/
structure Config where
  nip44Min : Nat
  nip44Max : Nat
  maxSessions : Nat
  sessionTimeout : Nat
  maxPermissions : Nat
  maxContent : Nat
  maxTags : Nat
  maxTagValues : Nat
  connectTimeout : Nat
  responseTimeout : Nat
  encryptionNip : Int
  memoryLock : Int
  debugMode : Int
  deriving DecidableEq, Repr

/-- config.c:56-74 `nostr_config_get_defaults`. -/
def defaults : Config :=
  { nip44Min := 1, nip44Max := 65535, maxSessions := 100, sessionTimeout := 3600,
    maxPermissions := 32, maxContent := 65536, maxTags := 100, maxTagValues := 50,
    connectTimeout := 30000, responseTimeout := 10000, encryptionNip := 44, memoryLock := 0,
    debugMode := 0 }

/-- The environment: `getenv`. -/
abbrev Env := Bytes → Option Bytes

/-- config.c:76-85 `parse_uint32_env`. -/
def parseU32 (env : Env) (name : Bytes) (dflt : Nat) : Nat :=
  match env name with
  | none => dflt
  | some t =>
      let (v, rest) := Num.strtoul t
      if rest ≠ [] ∨ v > 2 ^ 32 - 1 then dflt else v

/-- config.c:87-96 `parse_int_env`. -/
def parseI32 (env : Env) (name : Bytes) (dflt : Int) : Int :=
  match env name with
  | none => dflt
  | some t =>
      let (v, rest) := Num.strtol t
      if rest ≠ [] ∨ v > 2 ^ 31 - 1 ∨ v < -2 ^ 31 then dflt else v

/-- config.c:98-116 `nostr_config_load_env`. -/
def loadEnv (env : Env) (c : Config) : Config :=
  { nip44Min := parseU32 env (c!"NOSTR_NIP44_MIN_SIZE") c.nip44Min
    nip44Max := parseU32 env (c!"NOSTR_NIP44_MAX_SIZE") c.nip44Max
    maxSessions := parseU32 env (c!"NOSTR_MAX_SESSIONS") c.maxSessions
    sessionTimeout := parseU32 env (c!"NOSTR_SESSION_TIMEOUT") c.sessionTimeout
    maxPermissions := parseU32 env (c!"NOSTR_MAX_PERMISSIONS") c.maxPermissions
    maxContent := parseU32 env (c!"NOSTR_MAX_CONTENT_SIZE") c.maxContent
    maxTags := parseU32 env (c!"NOSTR_MAX_TAGS") c.maxTags
    maxTagValues := parseU32 env (c!"NOSTR_MAX_TAG_VALUES") c.maxTagValues
    connectTimeout := parseU32 env (c!"NOSTR_RELAY_CONNECT_TIMEOUT") c.connectTimeout
    responseTimeout := parseU32 env (c!"NOSTR_RELAY_RESPONSE_TIMEOUT") c.responseTimeout
    encryptionNip := parseI32 env (c!"NOSTR_ENCRYPTION_DEFAULT") c.encryptionNip
    memoryLock := parseI32 env (c!"NOSTR_SECURE_MEMORY_LOCK") c.memoryLock
    debugMode := parseI32 env (c!"NOSTR_DEBUG") c.debugMode }

/-- config.c:118-175 `nostr_config_validate`. -/
def validate (c : Config) : Res Unit :=
  if c.nip44Min < 1 ∨ c.nip44Min > 65535 then .err .invalidParam
  else if c.nip44Max < c.nip44Min ∨ c.nip44Max > 65535 then .err .invalidParam
  else if c.maxSessions = 0 ∨ c.maxSessions > 10000 then .err .invalidParam
  else if c.sessionTimeout < 60 ∨ c.sessionTimeout > 86400 then .err .invalidParam
  else if c.maxPermissions = 0 ∨ c.maxPermissions > 1000 then .err .invalidParam
  else if c.maxContent < 1024 ∨ c.maxContent > 1048576 then .err .invalidParam
  else if c.maxTags = 0 ∨ c.maxTags > 1000 then .err .invalidParam
  else if c.maxTagValues = 0 ∨ c.maxTagValues > 1000 then .err .invalidParam
  else if c.connectTimeout < 1000 ∨ c.connectTimeout > 300000 then .err .invalidParam
  else if c.responseTimeout < 1000 ∨ c.responseTimeout > 60000 then .err .invalidParam
  else if c.encryptionNip ≠ 4 ∧ c.encryptionNip ≠ 44 then .err .invalidParam
  else if c.memoryLock < 0 ∨ c.memoryLock > 1 then .err .invalidParam
  else if c.debugMode < 0 ∨ c.debugMode > 1 then .err .invalidParam
  else .ok ()

/-- config.c:14-17: the global state, and whether `config_lock` is held. `g_config` is zero-initialised;
its content is unused before initialisation, so the model starts from an arbitrary value. -/
structure State where
  cfg : Config
  initialized : Bool
  hasCallback : Bool
  locked : Bool
  deriving DecidableEq, Repr

/-- Result of an API call: return value, or the caller blocks forever on the lock it already holds
(config.c:35-44 `lock_config`, a default, non-recursive mutex). -/
inductive Out (α : Type)
  | ret (r : Res α)
  | deadlock
  deriving DecidableEq, Repr

/-- config.c:177-191 `nostr_config_get_current`; `ok none` is NULL. -/
def getCurrent (s : State) : State × Out (Option Config) :=
  if s.locked then (s, .deadlock)
  else if !s.initialized then (s, .ret (.ok none))
  else (s, .ret (.ok (some s.cfg)))

/-- config.c:193-231 `nostr_init_with_config`; `ninit` is the result of `nostr_init()`. -/
def initWith (s : State) (c : Option Config) (env : Env) (ninit : Res Unit) : State × Out Unit :=
  if s.locked then (s, .deadlock)
  else if s.initialized then (s, .ret (.ok ()))
  else match c with
    | some c => match validate c with
        | .ok () => ({ s with cfg := c, initialized := true }, .ret ninit)
        | e => (s, .ret e)
    | none =>
        let c := loadEnv env defaults
        match validate c with
        | .ok () => ({ s with cfg := c, initialized := true }, .ret ninit)
        | e => ({ s with cfg := c }, .ret e)

/-- config.c:233-239 `nostr_config_set_callback`. -/
def setCallback (s : State) (b : Bool) : State × Out Unit :=
  if s.locked then (s, .deadlock) else ({ s with hasCallback := b }, .ret (.ok ()))

/-- config.c:241-266 `nostr_config_update`. `cb` is what the registered callback does with the library
state when invoked (with the lock held, config.c:259-261): it returns the new state, or `none` if it
never returns. -/
def update (s : State) (c : Config) (cb : State → Option State) : State × Out Unit :=
  if s.locked then (s, .deadlock)
  else if !s.initialized then (s, .ret (.err .notFound))
  else match validate c with
    | .ok () =>
        let s1 := { s with cfg := c }
        if s.hasCallback then
          match cb { s1 with locked := true } with
          | some s2 => ({ s2 with locked := false }, .ret (.ok ()))
          | none => ({ s1 with locked := true }, .deadlock)
        else (s1, .ret (.ok ()))
    | e => (s, .ret e)

/-- One API call of a history; the callback of `update` is inert (a callback that calls the
configuration API never returns, see `Props`). -/
inductive Op
  | init (c : Option Config) (env : Env) (ninit : Res Unit)
  | update (c : Config)
  | setCallback (b : Bool)
  | get

/-- Effect of one call. -/
def step (s : State) : Op → State
  | .init c env n => (initWith s c env n).1
  | .update c => (update s c some).1
  | .setCallback b => (setCallback s b).1
  | .get => (getCurrent s).1

/-- State after a history of calls. -/
def run (s : State) (ops : List Op) : State := ops.foldl step s

/-- Program start: not initialised, no callback, lock free. -/
def start (c : Config) : State := ⟨c, false, false, false⟩

end Nostr.Config
