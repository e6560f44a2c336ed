import Verif.Num
import Verif.Hex.Spec

/-! # Vocabulary for delegation: clauses, their texts, what they allow (NIP-26) -/

namespace Nostr.Nip26.Spec
open Nostr

/-- One clause of a condition string. -/
inductive Clause where
  | kind (k : Nat)
  | after (t : Int)
  | before (t : Int)
  deriving DecidableEq, Repr

/-- NIP-26 text of a clause. -/
def Clause.text : Clause → Bytes
  | .kind k => c!"kind=" ++ Num.decNat k
  | .after t => c!"created_at>" ++ Num.decInt t
  | .before t => c!"created_at<" ++ Num.decInt t

/-- Kinds are 16-bit, times 64-bit numbers. -/
def Clause.InRange : Clause → Prop
  | .kind k => k ≤ 65535
  | .after t => -2 ^ 63 ≤ t ∧ t < 2 ^ 63
  | .before t => -2 ^ 63 ≤ t ∧ t < 2 ^ 63

/-- NIP-26 text of a list of clauses: joined by `&`. -/
def text : List Clause → Bytes
  | [] => []
  | [c] => c.text
  | c :: d :: cs => c.text ++ c!"&" ++ text (d :: cs)

/-- What the clauses allow together: one of the kinds, if any is named, and every time bound. -/
def Allows (cs : List Clause) (kind : Nat) (time : Int) : Prop :=
  ((∃ k, Clause.kind k ∈ cs) → Clause.kind kind ∈ cs) ∧
  (∀ t, Clause.after t ∈ cs → t < time) ∧ (∀ t, Clause.before t ∈ cs → time < t)

def Clause.isAfter : Clause → Bool
  | .after _ => true
  | _ => false

def Clause.isBefore : Clause → Bool
  | .before _ => true
  | _ => false

/-- At most one lower and at most one upper time bound. -/
def SingleBounds (cs : List Clause) : Prop := cs.countP Clause.isAfter ≤ 1 ∧ cs.countP Clause.isBefore ≤ 1

instance (cs : List Clause) : Decidable (SingleBounds cs) := by unfold SingleBounds; infer_instance

/-- A decimal number as the C library reads it: white space, a sign, digits. -/
def Numeral (t : Bytes) (v : Int) : Prop :=
  ∃ ws ds : Bytes, (∀ c ∈ ws, Num.isSpace c = true) ∧ ds ≠ [] ∧ (∀ c ∈ ds, Num.isDigit c = true) ∧
    ((t = ws ++ ds ∧ v = Num.natOf ds) ∨ (t = ws ++ c!"+" ++ ds ∧ v = Num.natOf ds) ∨ (t = ws ++ c!"-" ++ ds ∧ v = -(Num.natOf ds : Int)))

/-- Texts of a clause that are accepted; a kind is read modulo 2^64. -/
def Spelled (t : Bytes) : Clause → Prop
  | .kind k => ∃ n v, t = c!"kind=" ++ n ∧ Numeral n v ∧ -2 ^ 64 < v ∧ v < 2 ^ 64 ∧ (k : Int) = v % 2 ^ 64 ∧ k ≤ 65535
  | .after a => ∃ n, t = c!"created_at>" ++ n ∧ Numeral n a ∧ -2 ^ 63 ≤ a ∧ a < 2 ^ 63
  | .before a => ∃ n, t = c!"created_at<" ++ n ∧ Numeral n a ∧ -2 ^ 63 ≤ a ∧ a < 2 ^ 63

/-- A text that consists of spelled clauses with any number of `&` before, between and after them. -/
inductive Reads : Bytes → List Clause → Prop
  | done (amps : Bytes) (h : ∀ c ∈ amps, c = 0x26) : Reads amps []
  | cons (amps t rest : Bytes) (c : Clause) (cs : List Clause) (h : ∀ c ∈ amps, c = 0x26) (hs : Spelled t c) (hr : Reads rest cs) :
      Reads (amps ++ t ++ rest) (c :: cs)

/-- The text that NIP-26 has the delegator sign. -/
def signedText (delegatee conditions : Bytes) : Bytes :=
  c!"nostr:delegation:" ++ Hex.Spec.hexText delegatee ++ c!":" ++ conditions

end Nostr.Nip26.Spec
