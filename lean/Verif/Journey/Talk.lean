import Verif.Journey.Mail
import Verif.Nip46.Model

/-!
# Conversations with a signer and with a wallet

Vocabulary for requests and answers (src/nip46.c, src/nip47.c) that are published like any other event (src/relay.c), passed on by a relay
that keeps to the library's calls (`Verif/Journey/Spec.lean`) and read at the other end. The hosts have their own builds, platforms and limits.
-/

namespace Nostr.Journey.Talk
open Nostr Nostr.Event Nostr.Json Nostr.Journey.Spec

/-- The surroundings of NIP-46 and NIP-47 on a host; the cryptography is the same everywhere. -/
def env (h : Host) (nc : Nip44.Nc) (B : Nip44.B64) (C : Crypto) : Nip47.Env := ⟨nc, B, C, h.cfg, h.b⟩

/-- The filter by which a party asks for what is addressed to it: a kind, and its key. -/
def inbox (kind : Nat) (pk : Bytes) : Filter.Filter := { Filter.empty with kinds := [(kind : Int)], pTags := [Hex.Spec.hexText pk] }

/-- An encrypted event addressed to a key as an application makes it with `nostr_nip44_encrypt` (src/nip44.c:248-361), `nostr_event_create`,
`nostr_event_set_content`, `nostr_event_add_tag` (src/event.c:87-225) and `nostr_event_sign` (src/event.c:593-692): the library has no
function for the requests of a client of a signer, nor for what a wallet sends. -/
def letter (E : Nip47.Env) (kind : Nat) (now : Int) (nonce aux : Option Bytes) (sk peer text : Bytes) (more : List (List Bytes)) : Res Event :=
  Nip44.encrypt E.nc E.b64 E.cfg nonce sk peer text >>= fun ct =>
  Gift.addAll E.cfg { zero with kind := kind, createdAt := now, content := some ct } ([c!"p", Hex.hexEncode peer] :: more) >>= fun e =>
  sign E.crypto E.build aux sk e

/-- The sender's key pair, the other party's, and surroundings that work together. -/
structure Setting (E : Nip47.Env) (sk pk rsk rpk : Bytes) : Prop where
  crypto : Nostr.Event.Props.CryptoOK E.crypto
  sizes : Gift.Spec.Sizes E.crypto
  base64 : Gift.Spec.Standard E.b64
  cfg : Nip44.Spec.CfgOK E.cfg
  sender : E.crypto.pubOf sk = some pk
  keys : Nip44.Spec.NcOK E.nc sk pk rsk rpk

/-- A host that reads events of three tags and at least as much content as the default limit says (65536 bytes, config.c:64). -/
def Reads (h : Host) : Prop := ∀ c ∈ h.cfg, 3 ≤ c.maxTags ∧ 65536 ≤ c.maxContent

end Nostr.Journey.Talk
