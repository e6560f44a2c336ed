import Verif.Basic

/-! # Which text of the library a build compiles

`/repo/CMakeLists.txt` decides from the options of the user and the libraries it finds which variables are on,
which source files are compiled, and which macros the generated header `nostr_features.h` defines; the
preprocessor conditions in `/repo/src/*.c` then decide which definitions and which calls are in the library.

The tables of definitions, calls and declarations are in `Verif/Build/Tables.lean`. -/

namespace Nostr.Build

/-- The variables of CMakeLists.txt that decide about sources and macros (CMakeLists.txt:87-136, 548-652,
include/nostr_features.h.in:25-73), with the platform macros `_WIN32` and `ESP_PLATFORM`. -/
inductive Var
  | encoding | nip04 | nip05 | nip10 | nip13 | nip17 | nip18 | nip25 | nip26 | nip44 | nip46 | nip47 | nip49
  | nip51 | nip57 | nip59 | nip65 | relay | relayProtocol | hdKeys | jsonEnhanced | threading
  | cryptoNoscrypt | cryptoSecp | haveNoscrypt | haveSecp | haveMbedtls | haveCjson | haveLws | haveUtf8proc
  | win32 | esp
  deriving DecidableEq, Repr

/-- The final values of the variables. -/
abbrev Vars := Var → Bool

/-- What the user chooses: the options of CMakeLists.txt:87-136 (`on`; only the variables that are options are
read), `NOSTR_FEATURE_ALL_NIPS` (94), `NOSTR_CRYPTO_MBEDTLS` (180), and `NOSTR_FEATURE_JSON_ENHANCED`, which the
user may leave unset (113-126). -/
structure Options where
  on : Var → Bool
  allNips : Bool
  mbedtls : Bool
  json : Option Bool

/-- What the machine has: the platform and the libraries that CMakeLists.txt:190-540 finds. (Simplified: how a
library is looked for is not modelled; a library found is one that can be linked. mbedTLS is `REQUIRED` once it is
asked for, 183.) -/
structure Found where
  win32 : Bool
  msvc : Bool
  noscrypt : Bool
  secp256k1 : Bool
  cjson : Bool
  libwebsockets : Bool
  utf8proc : Bool

/-- CMakeLists.txt:139-157: what `NOSTR_FEATURE_ALL_NIPS` switches on. -/
def allNipsList : List Var :=
  [.nip04, .nip05, .nip10, .nip13, .nip17, .nip18, .nip25, .nip26, .nip44, .nip46, .nip47, .nip49, .nip51,
   .nip57, .nip59, .nip65, .hdKeys]

/-- CMakeLists.txt:579-584: what Windows without a cryptography library switches off. -/
def droppedList : List Var := [.nip04, .nip17, .nip44, .nip47, .nip59, .hdKeys]

/-- CMakeLists.txt:591: the features that require noscrypt. -/
def needNoscrypt : List Var := [.nip04, .nip17, .nip44, .nip46, .nip47, .nip59]

/-- CMakeLists.txt:139-157: the options after `NOSTR_FEATURE_ALL_NIPS`. -/
def asked (o : Options) (v : Var) : Bool := o.on v || (o.allNips && allNipsList.contains v)

/-- CMakeLists.txt:113-126 and 377-390: `NOSTR_FEATURE_JSON_ENHANCED` before the checks; switched on by itself if the
user did not set it and cJSON is found, but not with MSVC. -/
def startJson (o : Options) (f : Found) : Bool :=
  match o.json with
  | some b => b
  | none => f.cjson && !f.msvc

/-- CMakeLists.txt:552-556. -/
def haveNoscrypt (o : Options) (f : Found) : Bool := o.on .cryptoNoscrypt && f.noscrypt

/-- CMakeLists.txt:558-570. -/
def haveSecp (o : Options) (f : Found) : Bool := o.on .cryptoSecp && f.secp256k1

/-- CMakeLists.txt:549-570 `HAVE_CRYPTO_BACKEND`. -/
def backend (o : Options) (f : Found) : Bool := haveNoscrypt o f || haveSecp o f

/-- CMakeLists.txt:574-588: what remains of the options. -/
def kept (o : Options) (f : Found) (v : Var) : Bool := asked o v && (backend o f || !droppedList.contains v)

/-- CMakeLists.txt:604-608: Windows without libwebsockets switches relays off. -/
def relayOn (o : Options) (f : Found) : Bool := kept o f .relay && !(f.win32 && !f.libwebsockets)

/-- CMakeLists.txt:615-632: relays switch JSON on if cJSON is there; JSON is switched off if it is not. -/
def jsonOn (o : Options) (f : Found) : Bool := (startJson o f || (relayOn o f && f.cjson)) && f.cjson

/-- The variables at the end of CMakeLists.txt:62-652. -/
def final (o : Options) (f : Found) : Vars := fun
  | .relay => relayOn o f
  | .jsonEnhanced => jsonOn o f
  | .haveCjson => f.cjson && jsonOn o f                     -- 635-637
  | .haveLws => f.libwebsockets && relayOn o f              -- 643-646
  | .haveUtf8proc => f.utf8proc                             -- 648-650
  | .haveNoscrypt => haveNoscrypt o f
  | .haveSecp => haveSecp o f
  | .haveMbedtls => o.mbedtls                               -- 180-184
  | .win32 => f.win32
  | .esp => false
  | v => kept o f v

/-- CMakeLists.txt:62-652: the configuration, `none` for `FATAL_ERROR`. -/
def configure (o : Options) (f : Found) : Option Vars :=
  if !backend o f && !f.win32 then none                                          -- 574-588
  else if (needNoscrypt.any fun v => kept o f v) && !haveNoscrypt o f then none  -- 591-596
  else if kept o f .hdKeys && !backend o f then none                             -- 599-601
  else if relayOn o f && !f.libwebsockets then none                              -- 610-612
  else if relayOn o f && !startJson o f && !f.cjson then none                    -- 615-620
  else some (final o f)

/-- CMakeLists.txt:3-60: the build for the ESP32. `NOSTR_FEATURE_THREADING=0` (53) defines the macro; that is in
`d` below. -/
def espVars : Vars := fun
  | .jsonEnhanced | .relayProtocol | .haveCjson | .encoding | .nip13 | .cryptoNoscrypt | .haveNoscrypt
  | .haveMbedtls | .esp => true
  | _ => false

/-- A condition of the preprocessor or of CMake over the variables. -/
inductive G
  | tt
  | ff
  | has (v : Var)
  | not (g : G)
  | and (a b : G)
  | or (a b : G)
  deriving DecidableEq, Repr

/-- Whether a condition holds. -/
def G.eval (x : Vars) : G → Bool
  | .tt => true
  | .ff => false
  | .has v => x v
  | .not g => !g.eval x
  | .and a b => a.eval x && b.eval x
  | .or a b => a.eval x || b.eval x

/-- When `#ifdef` sees the macro: include/nostr_features.h.in:31-73 defines a macro if its variable is on
(`#cmakedefine`), except `NOSTR_FEATURE_ENCODING`, which line 28 always defines (`#define … @…@`), and
`NOSTR_FEATURE_THREADING`, which CMakeLists.txt:53 defines as `0` on the ESP32. -/
def d : Var → G
  | .encoding => .tt
  | .threading => .or (.has .threading) (.has .esp)
  | v => .has v

/-- The source files (CMakeLists.txt:667-761), and the libraries the code is linked with. -/
inductive File
  | event | key | utils | config | features | bech32 | nip21 | relay | nip05 | nip10 | nip13 | nip17 | nip18
  | nip25 | nip26 | nip44 | nip46 | nip47 | nip47_session | nip47_commands | nip49 | nip51 | zap | nip59 | nip65
  | hd_key | relay_protocol | relay_filter | relay_message | relay_nip11
  | libraries
  deriving DecidableEq, Repr

/-- CMakeLists.txt:667-761: the variables one of which must be on for the file to be compiled on a host. -/
def hostSource : File → G
  | .event | .key | .utils | .config | .features | .libraries => .tt
  | .bech32 | .nip21 => .has .encoding
  | .relay => .has .relay
  | .nip05 => .has .nip05
  | .nip10 => .has .nip10
  | .nip13 => .has .nip13
  | .nip17 => .has .nip17
  | .nip18 => .has .nip18
  | .nip25 => .has .nip25
  | .nip26 => .has .nip26
  | .nip44 => .or (.has .nip44) (.has .nip04)
  | .nip46 => .has .nip46
  | .nip47 | .nip47_session | .nip47_commands => .has .nip47
  | .nip49 => .has .nip49
  | .nip51 => .has .nip51
  | .zap => .has .nip57
  | .nip59 => .has .nip59
  | .nip65 => .has .nip65
  | .hd_key => .has .hdKeys
  | .relay_protocol | .relay_filter | .relay_message | .relay_nip11 => .has .relayProtocol

/-- CMakeLists.txt:4-27: the sources of the build for the ESP32. -/
def espSource : File → Bool
  | .event | .key | .utils | .config | .features | .bech32 | .nip21 | .nip13 | .nip44
  | .relay_protocol | .relay_filter | .relay_message | .relay_nip11 | .libraries => true
  | _ => false

/-- When a file is compiled. -/
def source (f : File) : G :=
  if espSource f then .or (hostSource f) (.has .esp) else .and (hostSource f) (.not (.has .esp))

/-- What the body of a definition does: a placeholder has a single `return`, or nothing at all; everything else
`works`. -/
inductive Body
  | works | notSupported | invalidJson | nothing | zero | null | minusOne
  deriving DecidableEq, Repr

/-- A definition of a function (or of one of the four shared variables): file, line, the preprocessor conditions
around it, whether it is `static`, what it does. -/
structure Def where
  file : File
  line : Nat
  guard : G
  isStatic : Bool
  body : Body
  deriving DecidableEq, Repr

/-- A use of the name: file, the first line with these conditions around it, the conditions. -/
structure Ref where
  file : File
  line : Nat
  guard : G
  deriving DecidableEq, Repr

/-- A name: where a public header declares it, if one does, where it is defined, where it is
used. -/
structure Name where
  name : String
  declared : Option String
  defs : List Def
  refs : List Ref

end Nostr.Build
