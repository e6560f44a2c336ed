import Verif.Gift.Model
import Verif.Event.Props
import Verif.Nip44.Spec
import Verif.Base64

/-! # Vocabulary for private messages and gift wraps -/

namespace Nostr.Gift.Spec
open Nostr Nostr.Event Nostr.Gift

/-- Keys have 32 bytes, signatures 64. -/
structure Sizes (C : Crypto) : Prop where
  pub : ∀ sk pk, C.pubOf sk = some pk → pk.length = 32
  sig : ∀ sk m r s, C.sign sk m r = some s → s.length = 64

/-- The base64 codec is the standard one as far as reading back, characters and length are concerned. -/
structure Standard (B : Nip44.B64) : Prop where
  ok : Nip44.Spec.B64OK B
  chars : ∀ x, ∀ c ∈ B.enc x, c ∈ Base64.alphabet ∨ c = 0x3d
  len : ∀ x, (B.enc x).length = (x.length + 2) / 3 * 4

/-- The id of the event is the hash of its serialisation. -/
def RightId (E : Env) (e : Event) : Prop := ∃ t, serialize E.build e = .ok t ∧ e.id = E.crypto.sha256 t

/-- The plaintext of `content`, encrypted between the owner of `sk` and the key `pk`, is JSON for the event `e`. -/
def Holds (E : Env) (sk pk content : Bytes) (e : Event) : Prop :=
  ∃ m, Nip44.decrypt E.nc E.b64 E.cfg sk pk content = .ok m ∧ fromJson E.plat E.build E.cfg (Json.cstr m) = .ok e

/-- `wrap` is a gift wrap for the owner of `sk` with `sl` inside: kind 1059, and the encrypted content is a seal of kind
13 whose id and signature verify under the seal's own key. -/
structure SealedIn (E : Env) (wrap : Event) (sk : Bytes) (sl : Event) : Prop where
  wrapKind : wrap.kind = 1059
  content : ∃ c, wrap.content = some c ∧ Holds E sk wrap.pubkey c sl
  sealKind : sl.kind = 13
  signed : verify E.crypto E.build sl = .ok ()

/-- `rumor` is what the seal contains. -/
def Inside (E : Env) (sk : Bytes) (sl rumor : Event) : Prop :=
  ∃ c, sl.content = some c ∧ Holds E sk sl.pubkey c rumor

/-- The tags of a direct message: the recipient, then the subject and the message replied to, if given. -/
def messageTags (rpk : Bytes) (subject replyTo : Option Bytes) : List (List Bytes) :=
  [[c!"p", Hex.Spec.hexText rpk]] ++ subject.toList.map (fun s => [c!"subject", s]) ++
    replyTo.toList.map (fun r => [c!"e", Hex.Spec.hexText r])

/-- The 172800 seconds up to and including now. -/
def InTwoDays (now t : Int) : Prop := now - 2 * 86400 < t ∧ t ≤ now

/-- Sender (`sk`, `pk`), recipient (`rsk`, `rpk`), one-time key (`esk`, `epk`) and surroundings that work together. -/
structure Setting (E : Env) (sk pk esk epk rsk rpk : Bytes) : Prop where
  crypto : Nostr.Event.Props.CryptoOK E.crypto
  sizes : Sizes E.crypto
  base64 : Standard E.b64
  cfg : Nip44.Spec.CfgOK E.cfg
  limits : ∀ c ∈ E.cfg, 60164 ≤ c.maxContent
  sender : E.crypto.pubOf sk = some pk
  once : E.crypto.pubOf esk = some epk
  recipient : rpk.length = 32
  seal_ : Nip44.Spec.NcOK E.nc sk pk rsk rpk
  wrap : Nip44.Spec.NcOK E.nc esk epk rsk rpk

end Nostr.Gift.Spec
