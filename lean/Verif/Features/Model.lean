import Verif.Basic

/-! # What the library reports about itself

`/repo/src/features.c`. A configuration of the build (`include/nostr_features.h.in:28-66`, the options of
`CMakeLists.txt:91-136`) is a function from features to Booleans. -/

namespace Nostr.Features
open Nostr

/-- The options of include/nostr_features.h.in:28-59 that can be switched: the NIPs by number, the others by
name. -/
inductive Feature
  | encoding
  | nip (n : Nat)
  | relay | relayProtocol | hdKeys | jsonEnhanced | threading
  deriving DecidableEq, Repr

/-- A build configuration: what is switched on. -/
abbrev Config := Feature → Bool

/-- The NIP options that exist: include/nostr_features.h.in:34-49, CMakeLists.txt:95-110. -/
def options : List Nat := [4, 5, 10, 13, 17, 18, 25, 26, 44, 46, 47, 49, 51, 57, 59, 65]

/-- features.c:5-66 `nostr_feature_nip_supported`: the cases of the switch, each compiled under its option. -/
def supported (c : Config) (n : Int) : Bool :=
  if n = 4 then c (.nip 4)
  else if n = 5 then c (.nip 5)
  else if n = 10 then c (.nip 10)
  else if n = 13 then c (.nip 13)
  else if n = 17 then c (.nip 17)
  else if n = 25 then c (.nip 25)
  else if n = 44 then c (.nip 44)
  else if n = 46 then c (.nip 46)
  else if n = 47 then c (.nip 47)
  else if n = 49 then c (.nip 49)
  else if n = 51 then c (.nip 51)
  else if n = 57 then c (.nip 57)
  else if n = 59 then c (.nip 59)
  else if n = 65 then c (.nip 65)
  else false

/-- The text buffer of features.c:106-115: what was written and the room that is left. -/
structure Buf where
  text : Bytes
  remaining : Nat

/-- features.c:113-116 `APPEND_FEATURE`: `snprintf` into the rest of the buffer. A text that does not fit is
written up to the room, and the position stays. (The cut text is kept here as the text; a later text would
overwrite it, which is why the caller must never get there.) -/
def append (b : Buf) (s : Bytes) : Buf :=
  if s.length < b.remaining then ⟨b.text ++ s, b.remaining - s.length⟩
  else ⟨b.text ++ s.take (b.remaining - 1), b.remaining⟩

/-- The pieces in the order of features.c:118-181, each with the option under which it is compiled. -/
def pieces : List (Feature × Bytes) :=
  [ (.encoding, c!",encoding"), (.nip 4, c!",nip04"), (.nip 5, c!",nip05"), (.nip 10, c!",nip10"),
    (.nip 13, c!",nip13"), (.nip 17, c!",nip17"), (.nip 25, c!",nip25"), (.nip 44, c!",nip44"),
    (.nip 46, c!",nip46"), (.nip 47, c!",nip47"), (.nip 49, c!",nip49"), (.nip 51, c!",nip51"),
    (.nip 57, c!",nip57"), (.nip 59, c!",nip59"), (.nip 65, c!",nip65"), (.relay, c!",relay"),
    (.relayProtocol, c!",relay-protocol"), (.hdKeys, c!",hd-keys"), (.jsonEnhanced, c!",json-enhanced"),
    (.threading, c!",threading") ]

/-- features.c:105-188 `nostr_feature_list_enabled`, the first call (later calls return the same text). -/
def listEnabled (c : Config) : Bytes :=
  (((pieces.filter fun p => c p.1).map Prod.snd).foldl append (append ⟨[], 512⟩ c!"std,events,keys")).text

/-- features.c:68-102: the four questions about single features. -/
def relayAvailable (c : Config) : Bool := c .relay
/-- features.c:77-84. -/
def hdKeysAvailable (c : Config) : Bool := c .hdKeys
/-- features.c:86-93. -/
def jsonEnhancedAvailable (c : Config) : Bool := c .jsonEnhanced
/-- features.c:95-102. -/
def relayProtocolAvailable (c : Config) : Bool := c .relayProtocol

end Nostr.Features
