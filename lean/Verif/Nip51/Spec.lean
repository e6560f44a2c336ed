import Verif.Nip51.Model
import Verif.Hex.Spec

/-! # Specification for lists: C46, C47, C48, C104 -/

namespace Nostr.Nip51.Spec
open Nostr Nostr.Nip51

/-- What a caller may ask for. `mem` and `dup` say whether memory for growing and for the texts is available. -/
inductive Op where
  | add (mem dup : Bool) (a : Add) (priv : Bool)
  | remove (i : Nat)
  | get (i : Nat)
  deriving DecidableEq, Repr

/-- What the caller gets: a return code, or an item. -/
inductive Out where
  | code (e : Option Err)
  | item (o : Option Item)
  deriving DecidableEq, Repr

/-- 64 hex digits. -/
def Hex64 (s : Bytes) : Prop := s.length = 64 ∧ ∀ c ∈ s, Hex.Spec.IsHexDigit c

/-- Arguments that the functions document as valid. -/
def Valid : Add → Prop
  | .pubkey k _ _ => Hex64 k
  | .event i _ => Hex64 i
  | .hashtag t => t ≠ []
  | .word t => t ≠ []
  | .relay t => t ≠ []
  | .reference t _ => t ≠ []
  | .group t u _ => t ≠ [] ∧ u ≠ []
  | .emoji t u => t ≠ [] ∧ u ≠ []

/-- The item asked for. -/
def made (a : Add) (priv : Bool) : Item :=
  match a with
  | .pubkey k h p => ⟨c!"p", k, h, p, priv⟩
  | .event i h => ⟨c!"e", i, h, none, priv⟩
  | .hashtag t => ⟨c!"t", t, none, none, priv⟩
  | .word t => ⟨c!"word", t, none, none, priv⟩
  | .relay t => ⟨c!"relay", t, none, none, priv⟩
  | .reference t h => ⟨c!"a", t, h, none, priv⟩
  | .group t u n => ⟨c!"group", t, some u, n, priv⟩
  | .emoji t u => ⟨c!"emoji", t, some u, none, priv⟩

/-- One operation on a sequence of items. -/
inductive Step : List Item → Op → List Item → Out → Prop
  | added {s : List Item} {mem dup : Bool} {a : Add} {priv : Bool} : Valid a → s.length < 4096 →
      Step s (.add mem dup a priv) (s ++ [made a priv]) (.code none)
  | invalid {s : List Item} {mem dup : Bool} {a : Add} {priv : Bool} : ¬ Valid a →
      Step s (.add mem dup a priv) s (.code (some .invalidParam))
  | full {s : List Item} {mem dup : Bool} {a : Add} {priv : Bool} : Valid a → s.length = 4096 →
      Step s (.add mem dup a priv) s (.code (some .memory))
  | noMemory {s : List Item} {mem dup : Bool} {a : Add} {priv : Bool} : Valid a → mem = false ∨ dup = false →
      Step s (.add mem dup a priv) s (.code (some .memory))
  | removed {s : List Item} {i : Nat} : i < s.length → Step s (.remove i) (s.take i ++ s.drop (i + 1)) (.code none)
  | noIndex {s : List Item} {i : Nat} : s.length ≤ i → Step s (.remove i) s (.code (some .invalidParam))
  | got {s : List Item} {i : Nat} : Step s (.get i) s (.item s[i]?)

/-- A history of operations with what was returned. -/
inductive Run : List Item → List (Op × Out) → List Item → Prop
  | nil {s : List Item} : Run s [] s
  | cons {s s1 s2 : List Item} {op : Op} {out : Out} {h : List (Op × Out)} : Step s op s1 out → Run s1 h s2 → Run s ((op, out) :: h) s2

/-- Lists that a program can have: created, then changed by the functions above, with or without memory. -/
inductive Reach : Lst → Prop
  | create (kind : Nat) : Reach (create kind)
  | add {l l' : Lst} {mem dup : Bool} {a : Add} {priv : Bool} {r : Option Err} : Reach l → add mem dup l a priv = .ok (l', r) → Reach l'
  | remove {l l' : Lst} {i : Nat} {r : Option Err} : Reach l → remove l i = .ok (l', r) → Reach l'
  | d {l : Lst} {dup : Bool} {o : Option Bytes} : Reach l → Reach { l with d := (setText dup o).1 }
  | title {l : Lst} {dup : Bool} {o : Option Bytes} : Reach l → Reach { l with title := (setText dup o).1 }
  | descr {l : Lst} {dup : Bool} {o : Option Bytes} : Reach l → Reach { l with descr := (setText dup o).1 }
  | image {l : Lst} {dup : Bool} {o : Option Bytes} : Reach l → Reach { l with image := (setText dup o).1 }

/-- The texts of an item are C strings. -/
def Texts (it : Item) : Prop := CStr it.type ∧ CStr it.value ∧ (∀ t ∈ it.hint, CStr t) ∧ ∀ t ∈ it.pet, CStr t

/-- Fields that the reader of private items has room for. -/
structure Fits (it : Item) : Prop where
  type : it.type.length ≤ 63
  value : it.value.length ≤ 1023
  hint : ∀ t ∈ it.hint, t.length ≤ 511
  pet : ∀ t ∈ it.pet, t.length ≤ 255

/-- An empty text counts as none. -/
def nonempty (o : Option Bytes) : Option Bytes := o.filter (· ≠ [])

/-- A private item as it is read back: empty hints and petnames are gone. -/
def privBack (it : Item) : Item := { it with hint := nonempty it.hint, pet := nonempty it.pet }

/-- A public item as it is read back: in front of a petname there is always a hint. -/
def pubBack (it : Item) : Item := { it with hint := if it.pet ≠ none ∧ it.hint = none then some [] else it.hint }

/-- Public items, then private ones, each in order, as they are read back. -/
def back (s : List Item) : List Item := (s.filter fun it => !it.priv).map pubBack ++ (s.filter (·.priv)).map privBack

end Nostr.Nip51.Spec
