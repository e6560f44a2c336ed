import Verif.Basic

/-! # Vocabulary of C196 (independent of the model) -/

namespace Nostr.Outbuf.Spec
open Nostr

/-- The memory behind an output pointer, seen by the caller as a C string: it ends inside the memory and reads `text`.
Nothing is said of a NULL pointer or a size of zero. -/
def Reads (b : Option Bytes) (text : Bytes) : Prop :=
  ∀ m, b = some m → m ≠ [] → (0 : UInt8) ∉ text ∧ ∃ rest, m = text ++ 0 :: rest

/-- The memory can hold the text and its end. -/
def Room (b : Option Bytes) (text : Bytes) : Prop := ∀ m, b = some m → text.length < m.length

/-- What is left of a text that does not fit. -/
def cut (b : Option Bytes) (text : Bytes) : Bytes := text.take ((b.getD []).length - 1)

/-- The same memory, perhaps with other contents: nothing is written before or behind it. -/
def SameRoom (old new : Option Bytes) : Prop := new.map List.length = old.map List.length

/-- The caller's memory was `old` and is `new`: it reads the text, cut if it does not fit. -/
def Got (old new : Option Bytes) (text : Bytes) : Prop :=
  SameRoom old new ∧ Reads new (cut old text) ∧ (Room old text → Reads new text)

/-- A C string. -/
def CText (s : Bytes) : Prop := (0 : UInt8) ∉ s

/-- The value of a tag with the given name: `[name, value, …]`. -/
def valueOf (name : Bytes) : List Bytes → Option Bytes
  | n :: v :: _ => if n = name then some v else none
  | _ => none

/-- The value of the last tag with that name. -/
def lastValue (name : Bytes) (tags : List (List Bytes)) : Option Bytes := (tags.filterMap (valueOf name)).getLast?

/-- The relay hint of a tag: `["e", id, hint, …]`. -/
def hintOf : List Bytes → Option Bytes
  | n :: _ :: h :: _ => if n = c!"e" then some h else none
  | _ => none

/-- The last relay hint given by any `e` tag. -/
def lastHint (tags : List (List Bytes)) : Option Bytes := (tags.filterMap hintOf).getLast?

end Nostr.Outbuf.Spec

namespace Nostr.Outbuf.Spec

/-- The memory was `old` and is `new`: it starts with the text and its terminator, and the bytes behind are the old ones. -/
def Written (old text new : Bytes) : Prop :=
  text.length < old.length ∧ new = text ++ 0 :: old.drop (text.length + 1)

/-- What a call returned (`none` is OK) and the buffer afterwards, for a caller who expects a text or an error: the text is
there whole and nothing else changed, or the error is reported and nothing changed. -/
def WholeOrNothing (old : Bytes) : (expected : Res Bytes) → (outcome : Res (Option Err × Bytes)) → Prop
  | .ok text, r => ∃ new, r = .ok (none, new) ∧ Written old text new
  | .err x, r => r = .ok (some x, old)
  | .ub, _ => False

end Nostr.Outbuf.Spec
