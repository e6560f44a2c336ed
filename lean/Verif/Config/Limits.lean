import Verif.Event.Model
import Verif.Nip44.Model

/-!
# The limits of the configuration in use

What an application does to one event while the configuration changes, and where the library looks at the configuration
(src/event.c:140-143, 510-516, 527-532; src/nip44.c:68-75, 105-109; the session table is in `Verif/Session`).
-/

namespace Nostr.Config.Limits
open Nostr Nostr.Event

/-- The configuration in force (`none`: the library was initialised without one, config.c:177-182) and the application's event. -/
structure World where
  cfg : Option Config
  event : Event

/-- What the application does. -/
inductive Op
  /-- `nostr_init_with_config` or `nostr_config_update` puts `c` in force (which configurations they accept is C44, C45) -/
  | configure (c : Config)
  /-- `nostr_event_set_content` -/
  | content (t : Bytes)
  /-- `nostr_event_add_tag` -/
  | tag (values : List Bytes)
  /-- `nostr_event_from_json`; the event replaces the one before -/
  | read (json : Bytes)
  /-- the fields that are set directly or by signing: id, key, time, kind, signature -/
  | fields (id pk : Bytes) (time : Int) (kind : Nat) (sig : Bytes)

/-- A call that fails changes nothing. -/
def keep (e : Event) : Res Event → Event
  | .ok e' => e'
  | _ => e

/-- One call: event.c:119-132 `nostr_event_set_content`, 134-225 `nostr_event_add_tag`, 456-591 `nostr_event_from_json`. -/
def step (P : Plat) (b : Build) (w : World) : Op → World
  | .configure c => { w with cfg := some c }
  | .content t => { w with event := { w.event with content := some t } }
  | .tag vs => { w with event := keep w.event (addTag w.cfg w.event vs) }
  | .read s => { w with event := keep w.event (fromJson P b w.cfg s) }
  | .fields i pk t k s => { w with event := { w.event with id := i, pubkey := pk, createdAt := t, kind := k, sig := s } }

/-- A new event (event.c:87-105; `now` is the time of the clock) and what is done to it. -/
def run (P : Plat) (b : Build) (cfg : Option Config) (now : Int) (ops : List Op) : World :=
  ops.foldl (step P b) ⟨cfg, { zero with createdAt := now }⟩

/-- The library is never without a configuration whose limit is at most `n` tags. -/
def AtMost (n : Nat) (cfg : Option Config) (ops : List Op) : Prop :=
  (∃ c, cfg = some c ∧ c.maxTags ≤ n) ∧ ∀ c, .configure c ∈ ops → c.maxTags ≤ n

/-- The configuration stays as it is. -/
def Fixed (ops : List Op) : Prop := ∀ c, .configure c ∉ ops

/-- What an application can do in C: texts without a null byte, fields of their size. -/
def Proper : Op → Prop
  | .configure _ => True
  | .content t => CStr t
  | .tag vs => ∀ v ∈ vs, CStr v
  | .read _ => True
  | .fields i pk _ k s => i.length = 32 ∧ pk.length = 32 ∧ s.length = 64 ∧ k < 65536

/-- Two configurations with the same limits for plaintexts, sessions, permissions, content and tags; they may differ in the values per tag,
the two relay timeouts, the encryption, the memory lock and the debug mode. -/
def SameLimits (c d : Config) : Prop :=
  c.nip44Min = d.nip44Min ∧ c.nip44Max = d.nip44Max ∧ c.maxSessions = d.maxSessions ∧ c.sessionTimeout = d.sessionTimeout ∧
    c.maxPermissions = d.maxPermissions ∧ c.maxContent = d.maxContent ∧ c.maxTags = d.maxTags

instance (c d : Config) : Decidable (SameLimits c d) := by unfold SameLimits; infer_instance

end Nostr.Config.Limits
