import Verif.Journey.Spec
import Verif.Gift.Spec

/-!
# A private message on its way

Vocabulary for a private message (src/nip17.c) that is published like any other event (src/relay.c), passed on by a relay that keeps to the
library's calls (`Verif/Journey/Spec.lean`) and unwrapped by its recipient. The three hosts have their own builds, platforms and limits.
-/

namespace Nostr.Journey.Mail
open Nostr Nostr.Event Nostr.Json Nostr.Journey.Spec

/-- The surroundings of private messages on a host; the cryptography is the same everywhere. -/
def env (h : Host) (nc : Nip44.Nc) (B : Nip44.B64) (C : Crypto) : Gift.Env := ⟨nc, B, C, h.cfg, h.b, h.P⟩

/-- The filter by which a recipient asks for its messages: kind 1059, addressed to the key. -/
def inbox (rpk : Bytes) : Filter.Filter := { Filter.empty with kinds := [1059], pTags := [Hex.Spec.hexText rpk] }

/-- The recipient's limits are not narrower than the sender's, and admit the three tags of a message. -/
structure Wider (sender recipient : Option Config.Config) : Prop where
  least : Nip44.minSize recipient ≤ Nip44.minSize sender
  most : Nip44.maxSize sender ≤ Nip44.maxSize recipient
  tags : ∀ c ∈ recipient, 3 ≤ c.maxTags

/-- A host that reads events of one tag and at least as much content as the default limit says (65536 bytes, config.c:64). -/
def Reads (h : Host) : Prop := ∀ c ∈ h.cfg, 1 ≤ c.maxTags ∧ 65536 ≤ c.maxContent

/-- A host whose content limit is at most the default one. -/
def Limited (h : Host) : Prop := ∃ c ∈ h.cfg, c.maxContent ≤ 65536

end Nostr.Journey.Mail
