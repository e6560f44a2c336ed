import Verif.Msg.Model
import Verif.Event.Spec

/-! # Vocabulary for message properties -/

namespace Nostr.Msg.Spec
open Nostr Nostr.Event Nostr.Json

/-- A subscription id: 1 to 64 printable ASCII characters. -/
def SubId (s : Bytes) : Prop := (1 ≤ s.length ∧ s.length ≤ 64) ∧ ∀ c ∈ s, 32 ≤ c.toNat ∧ c.toNat ≤ 126

/-- The elements denote the filters, one by one and in order: each is read by the filter parser and passes
validation. -/
inductive Filters (P : Plat) : List Json → List Filter.Filter → Prop
  | nil : Filters P [] []
  | cons {j js f fs} : Filter.ofTree P.real j = .ok f → (Filter.validate f).1 = .ok () → Filters P js fs →
      Filters P (j :: js) (f :: fs)

/-- The client messages of NIP-01, NIP-42 and NIP-45. Events are read by the event parser, which is the
subject of other properties; elements after the ones named are ignored. -/
inductive Denotes (P : Plat) (cfg : Option Config.Config) : Json → ClientMsg → Prop
  | event {j rest e} : fromTree P cfg j = .ok e →
      Denotes P cfg (.arr (.str (c!"EVENT") :: j :: rest)) (.event e)
  | req {id js fs} : SubId id → js.length ≤ 10 → Filters P js fs →
      Denotes P cfg (.arr (.str (c!"REQ") :: .str id :: js)) (.req id fs)
  | close {id rest} : SubId id → Denotes P cfg (.arr (.str (c!"CLOSE") :: .str id :: rest)) (.close id)
  | auth {j rest e} : fromTree P cfg j = .ok e →
      Denotes P cfg (.arr (.str (c!"AUTH") :: j :: rest)) (.auth e)
  | count {id js fs} : SubId id → js.length ≤ 10 → Filters P js fs →
      Denotes P cfg (.arr (.str (c!"COUNT") :: .str id :: js)) (.count id fs)

mutual
/-- Every number of the tree is the same integer, without its fraction, after cJSON has printed it (integers of up to 15 digits are). -/
def Holds (real : Bytes → Int) (r : Bytes → Json) : Json → Prop
  | .num t => ∃ t', r t = .num t' ∧ int64 real t' = int64 real t
  | .arr l => HoldsL real r l
  | .obj m => HoldsM real r m
  | _ => True
/-- `Holds` for elements. -/
def HoldsL (real : Bytes → Int) (r : Bytes → Json) : List Json → Prop
  | [] => True
  | j :: l => Holds real r j ∧ HoldsL real r l
/-- `Holds` for members. -/
def HoldsM (real : Bytes → Int) (r : Bytes → Json) : List (Bytes × Json) → Prop
  | [] => True
  | (_, j) :: m => Holds real r j ∧ HoldsM real r m
end

/-- The strings of a relay message are C strings and its event, if any, is well formed with a time that a
JSON number carries exactly; so is its count. -/
def Plain : RelayMsg → Prop
  | .event sub e => CStr sub ∧ ∀ x ∈ e, Nostr.Event.Spec.WF x ∧ x.createdAt.natAbs < 10 ^ 15
  | .ok id _ m => CStr id ∧ CStr m
  | .eose sub => CStr sub
  | .closed sub m => CStr sub ∧ CStr m
  | .notice m => CStr m
  | .auth ch => CStr ch
  | .count q n _ => CStr q ∧ n.natAbs < 10 ^ 15

/-- The JSON array that NIP-01 (NIP-42, NIP-45) prescribes for a message: what the receiver must find after
parsing. -/
inductive Wire (P : Plat) (cfg : Option Config.Config) : RelayMsg → Json → Prop
  | event {sub e j} : fromTree P cfg j = .ok { e with content := some e.text } →
      Wire P cfg (.event sub (some e)) (.arr [.str (c!"EVENT"), .str sub, j])
  | okTrue {id m} : Wire P cfg (.ok id true m) (.arr [.str (c!"OK"), .str id, .tru, .str m])
  | okFalse {id m} : Wire P cfg (.ok id false m) (.arr [.str (c!"OK"), .str id, .fls, .str m])
  | eose {sub} : Wire P cfg (.eose sub) (.arr [.str (c!"EOSE"), .str sub])
  | closed {sub m} : Wire P cfg (.closed sub m) (.arr [.str (c!"CLOSED"), .str sub, .str m])
  | notice {m} : Wire P cfg (.notice m) (.arr [.str (c!"NOTICE"), .str m])
  | auth {ch} : Wire P cfg (.auth ch) (.arr [.str (c!"AUTH"), .str ch])
  | count {q n t} : int64 P.real t = n →
      Wire P cfg (.count q n false) (.arr [.str (c!"COUNT"), .str q, .obj [(c!"count", .num t)]])
  | approx {q n t} : int64 P.real t = n →
      Wire P cfg (.count q n true)
        (.arr [.str (c!"COUNT"), .str q, .obj [(c!"count", .num t), (c!"approximate", .tru)]])

end Nostr.Msg.Spec
