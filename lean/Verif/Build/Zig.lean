import Verif.Build.Spec

/-! # The other ways to build: Zig, and the presets of CMake -/

namespace Nostr.Build
open Nostr

/-- build.zig:19-32: the files that are compiled, with the libraries of build.zig:36-38. -/
def zigSource : File → Bool
  | .event | .key | .utils | .config | .features | .bech32 | .nip13 | .zap | .relay_protocol | .libraries => true
  | _ => false

/-- zig-include/nostr_features.h:8-51: the macros, which do not depend on anything; `_WIN32` depends on the target
(build.zig:4). (`HAVE_SCHNORRSIG_SIGN32` (44-46) is read by no line that decides about a definition or a use, so it is
not among the variables.) -/
def zigVars (windows : Bool) : Vars := fun
  | .encoding | .nip13 | .nip18 | .nip26 | .nip57 | .relayProtocol | .threading | .cryptoSecp | .haveSecp => true
  | .win32 => windows
  | _ => false

/-- CMakePresets.json:3-103: a preset that can be chosen, its value for `NOSTR_FEATURE_THREADING` and for
`NOSTR_FEATURE_JSON_ENHANCED`, where it has one. All of them inherit `NOSTR_FEATURE_NIP57`, `NOSTR_FEATURE_NIP13` and
`NOSTR_FEATURE_RELAY` on. -/
structure Preset where
  name : String
  threading : Option Bool
  json : Option Bool

/-- CMakePresets.json:3-103. (An inherited value gives way to the preset's own.) -/
def presets : List Preset :=
  [ ⟨"debug", none, none⟩, ⟨"release", none, none⟩,
    ⟨"debug-enhanced", none, some true⟩, ⟨"release-enhanced", none, some true⟩,
    ⟨"win-debug", some false, some false⟩, ⟨"win-release", some false, some false⟩,
    ⟨"win-debug-vcpkg", none, some true⟩, ⟨"win-release-vcpkg", some false, some true⟩ ]

/-- CMakeLists.txt:87-136: the options as they are without a choice of the user. -/
def standard : Var → Bool
  | .nip04 | .nip17 | .nip44 | .nip46 | .nip47 | .nip59 | .hdKeys => false
  | _ => true

/-- The options a preset gives. -/
def Preset.options (p : Preset) : Options :=
  { on := fun
      | .nip57 | .nip13 | .relay => true
      | .threading => p.threading.getD (standard .threading)
      | v => standard v
    allNips := false, mbedtls := false, json := p.json }

end Nostr.Build
