import Verif.Nip47.Model
import Verif.Hex.Spec

/-! # Vocabulary for wallet connect -/

namespace Nostr.Nip47.Spec
open Nostr Nostr.Json

/-- `s` is the hex text of `bs`, in either case. -/
def HexFor (s bs : Bytes) : Prop := Hex.Spec.lowerHex s = Hex.Spec.hexText bs

/-- Percent-encoding: `text` stands for `value`. Any character except `%`, `&` may stand for itself. -/
inductive Encodes : Bytes → Bytes → Prop
  | nil : Encodes [] []
  | plain {c : UInt8} {t v : Bytes} : c ≠ 0x25 → c ≠ 0x26 → c ≠ 0 → Encodes t v → Encodes (c :: t) (c :: v)
  | pct {a b x : UInt8} {t v : Bytes} : HexFor [a, b] [x] → x ≠ 0 → Encodes t v → Encodes (0x25 :: a :: b :: t) (x :: v)

/-- Texts of the parameters with this name, in order. -/
def values (name : Bytes) (ps : List (Bytes × Bytes)) : List Bytes :=
  (ps.filter fun p => p.1 = name).map (·.2)

/-- `name=text` joined by `&`. -/
def query (ps : List (Bytes × Bytes)) : Bytes := Text.join 0x26 (ps.map fun p => p.1 ++ 0x3d :: p.2)

/-- A wallet-connect URI. -/
def uri (key : Bytes) (ps : List (Bytes × Bytes)) : Bytes :=
  c!"nostr+walletconnect://" ++ key ++ 0x3f :: query ps

/-- Names without `=` and `&`, texts without `&`. -/
def Clean (ps : List (Bytes × Bytes)) : Prop := ∀ p ∈ ps, 0x3d ∉ p.1 ∧ 0x26 ∉ p.1 ∧ 0x26 ∉ p.2

/-- The parameters describe the connection: its relays in order, exactly one secret, at most one address. -/
structure Describes (key : Bytes) (ps : List (Bytes × Bytes)) (c : Conn) : Prop where
  key : HexFor key c.key
  keyLen : c.key.length = 32
  relays : Text.Each Encodes (values (c!"relay") ps) c.relays
  some : c.relays ≠ []
  secret : ∃ t b, values (c!"secret") ps = [t] ∧ c.secret = Option.some b ∧ HexFor t b ∧ b.length = 32
  lud16 : (values (c!"lud16") ps = [] ∧ c.lud16 = none) ∨
    ∃ t v, values (c!"lud16") ps = [t] ∧ c.lud16 = Option.some v ∧ Encodes t v

/-- Pairs of characters that are read as a byte: two hex digits, or a blank or a sign and a hex digit. -/
def LaxPairs : Bytes → Prop
  | a :: b :: s => Hex.Spec.IsHexDigit b ∧
      (Hex.Spec.IsHexDigit a ∨ a = 0x20 ∨ (0x09 ≤ a.toNat ∧ a.toNat ≤ 0x0d) ∨ a = 0x2b ∨ a = 0x2d) ∧ LaxPairs s
  | [_] => False
  | [] => True

/-- The bytes may stand between the quotes of a JSON string: no quote, no control character, and every backslash
starts an escape sequence. -/
inductive Body : Bytes → Prop
  | nil : Body []
  | plain {c : UInt8} {s : Bytes} : c ≠ 0x22 → c ≠ 0x5c → 0x20 ≤ c.toNat → Body s → Body (c :: s)
  | two {c : UInt8} {s : Bytes} : c ∈ [0x22, 0x5c, 0x2f, 0x62, 0x66, 0x6e, 0x72, 0x74] → Body s → Body (0x5c :: c :: s)
  | four {a b c d : UInt8} {s : Bytes} : (∀ x ∈ [a, b, c, d], Hex.Spec.IsHexDigit x) → Body s →
      Body (0x5c :: 0x75 :: a :: b :: c :: d :: s)

/-- Numbers that are written exactly by cJSON (C99 in the list of properties names the limit). -/
def Exact (n : Int) : Prop := n.natAbs < 10 ^ 15

/-- Members of a JSON object for optional values. -/
def opt {α : Type} (name : Bytes) (f : α → Json) (o : Option α) : List (Bytes × Json) := (o.map fun a => (name, f a)).toList

/-- A decimal number. -/
def number (n : Int) : Json := .num (Num.decInt n)

/-- Characters that need no escape in JSON. -/
def Plain (s : Bytes) : Prop := ∀ c ∈ s, c ≠ 0x22 ∧ c ≠ 0x5c ∧ 0x20 ≤ c.toNat

end Nostr.Nip47.Spec
