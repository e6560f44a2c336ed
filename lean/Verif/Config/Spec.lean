import Verif.Config.Model

/-! # Vocabulary for the configuration properties -/

namespace Nostr.Config.Spec
open Nostr Nostr.Config

/-- The ranges every accepted configuration satisfies; they lie within those of CONFIG.md (`Config.Doc`, C214). -/
def InRange (c : Config) : Prop :=
  (1 ≤ c.nip44Min ∧ c.nip44Min ≤ c.nip44Max ∧ c.nip44Max ≤ 65535) ∧
  (1 ≤ c.maxSessions ∧ c.maxSessions ≤ 10000) ∧
  (60 ≤ c.sessionTimeout ∧ c.sessionTimeout ≤ 86400) ∧
  (1 ≤ c.maxPermissions ∧ c.maxPermissions ≤ 1000) ∧
  (1024 ≤ c.maxContent ∧ c.maxContent ≤ 1048576) ∧
  (1 ≤ c.maxTags ∧ c.maxTags ≤ 1000) ∧
  (1 ≤ c.maxTagValues ∧ c.maxTagValues ≤ 1000) ∧
  (1000 ≤ c.connectTimeout ∧ c.connectTimeout ≤ 300000) ∧
  (1000 ≤ c.responseTimeout ∧ c.responseTimeout ≤ 60000) ∧
  (c.encryptionNip = 4 ∨ c.encryptionNip = 44) ∧
  (c.memoryLock = 0 ∨ c.memoryLock = 1) ∧ (c.debugMode = 0 ∨ c.debugMode = 1)

instance (c : Config) : Decidable (InRange c) := by unfold InRange; infer_instance

/-- The simplest account of the configuration: `none` before initialisation. The first initialisation
with an in-range value takes effect, later ones do nothing; updates need an initialised library and an
in-range value. -/
def specStep (s : Option Config) : Op → Option Config
  | .init c env _ =>
      match s with
      | some x => some x
      | none =>
          let c := match c with
            | some c => c
            | none => loadEnv env defaults
          if InRange c then some c else none
  | .update c =>
      match s with
      | some x => if InRange c then some c else some x
      | none => none
  | _ => s

/-- The environment variables: name, the setting each one is for, and the range its type can hold. -/
def variables : List (Bytes × (Config → Int) × Int × Int) :=
  [(c!"NOSTR_NIP44_MIN_SIZE", fun c => c.nip44Min, 0, 2 ^ 32 - 1),
   (c!"NOSTR_NIP44_MAX_SIZE", fun c => c.nip44Max, 0, 2 ^ 32 - 1),
   (c!"NOSTR_MAX_SESSIONS", fun c => c.maxSessions, 0, 2 ^ 32 - 1),
   (c!"NOSTR_SESSION_TIMEOUT", fun c => c.sessionTimeout, 0, 2 ^ 32 - 1),
   (c!"NOSTR_MAX_PERMISSIONS", fun c => c.maxPermissions, 0, 2 ^ 32 - 1),
   (c!"NOSTR_MAX_CONTENT_SIZE", fun c => c.maxContent, 0, 2 ^ 32 - 1),
   (c!"NOSTR_MAX_TAGS", fun c => c.maxTags, 0, 2 ^ 32 - 1),
   (c!"NOSTR_MAX_TAG_VALUES", fun c => c.maxTagValues, 0, 2 ^ 32 - 1),
   (c!"NOSTR_RELAY_CONNECT_TIMEOUT", fun c => c.connectTimeout, 0, 2 ^ 32 - 1),
   (c!"NOSTR_RELAY_RESPONSE_TIMEOUT", fun c => c.responseTimeout, 0, 2 ^ 32 - 1),
   (c!"NOSTR_ENCRYPTION_DEFAULT", fun c => c.encryptionNip, -2 ^ 31, 2 ^ 31 - 1),
   (c!"NOSTR_SECURE_MEMORY_LOCK", fun c => c.memoryLock, -2 ^ 31, 2 ^ 31 - 1),
   (c!"NOSTR_DEBUG", fun c => c.debugMode, -2 ^ 31, 2 ^ 31 - 1)]

/-- A byte that can occur in the decimal notation of an integer as `strtol` reads it. -/
def Numeric (b : UInt8) : Prop :=
  (48 ≤ b.toNat ∧ b.toNat ≤ 57) ∨ (9 ≤ b.toNat ∧ b.toNat ≤ 13) ∨ b = 0x20 ∨ b = 0x2b ∨ b = 0x2d

/-- `got` is what a variable with text `var` should make of the old value: unset, malformed and
out-of-range texts leave it, a decimal number in range replaces it. -/
def FromVar (var : Option Bytes) (lo hi old got : Int) : Prop :=
  (var = none → got = old) ∧
  (∀ n : Int, lo ≤ n → n ≤ hi → var = some (Num.decInt n) → got = n) ∧
  (∀ t, var = some t → (∃ b ∈ t, ¬ Numeric b) → got = old) ∧
  (∀ n : Int, hi < n ∨ (n < lo ∧ -2 ^ 63 ≤ n) → var = some (Num.decInt n) → got = old)

/-- What a caller of `nostr_config_get_current` sees. -/
def view (s : State) : Option Config :=
  match (getCurrent s).2 with
  | .ret (.ok c) => c
  | _ => none

end Nostr.Config.Spec
