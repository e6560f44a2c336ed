import Verif.Nip65.Model

/-! # Specification for relay lists: C49, C50, C51 -/

namespace Nostr.Nip65.Spec
open Nostr Nostr.Nip65

/-- A WebSocket URL of at most 2048 bytes with something that can be a host behind the scheme. -/
def ValidUrl (url : Bytes) : Prop :=
  url.length ≤ 2048 ∧ ∃ c rest, (url = c!"wss://" ++ c :: rest ∨ url = c!"ws://" ++ c :: rest) ∧
    c ∉ ([0x2f, 0x3a, 0x3f, 0x23, 0x40, 0x20] : List UInt8)

/-- The entry may be added. -/
def Fit (s : List Entry) (e : Entry) : Prop :=
  ValidUrl e.url ∧ (e.read = true ∨ e.write = true) ∧ s.length < 256 ∧ ∀ x ∈ s, x.url ≠ e.url

/-- An attempt to add an entry; `mem` and `dup` say whether memory is available. -/
structure Try where
  mem : Bool
  dup : Bool
  e : Entry

/-- One addition on a sequence of entries. -/
inductive Step : List Entry → Try → List Entry → Option Err → Prop
  | added {s : List Entry} {t : Try} : Fit s t.e → Step s t (s ++ [t.e]) none
  | rejected {s : List Entry} {t : Try} : ¬ Fit s t.e → Step s t s (some .invalidParam)
  | noMemory {s : List Entry} {t : Try} : Fit s t.e → t.mem = false ∨ t.dup = false → Step s t s (some .memory)

/-- A history of additions with their return values. -/
inductive Run : List Entry → List (Try × Option Err) → List Entry → Prop
  | nil {s : List Entry} : Run s [] s
  | cons {s s1 s2 : List Entry} {t : Try} {r : Option Err} {h : List (Try × Option Err)} : Step s t s1 r → Run s1 h s2 → Run s ((t, r) :: h) s2

/-- What holds of every relay list. -/
structure Good (s : List Entry) : Prop where
  urls : (s.map (·.url)).Nodup
  valid : ∀ e ∈ s, ValidUrl e.url ∧ (e.read = true ∨ e.write = true)
  count : s.length ≤ 256

/-- Lists that a program can have. -/
inductive Reach : Lst → Prop
  | create : Reach create
  | add {l l' : Lst} {mem dup : Bool} {e : Entry} {r : Option Err} : Reach l → add mem dup l e = .ok (l', r) → Reach l'

/-- The entry that an `r` tag stands for: read and write unless there is a marker. -/
def Says (t : List Bytes) (e : Entry) : Prop :=
  ∃ r, t = c!"r" :: e.url :: r ∧
    ((e.read = true ∧ e.write = false ∧ r.head? = some (c!"read")) ∨ (e.read = false ∧ e.write = true ∧ r.head? = some (c!"write")) ∨
      (e.read = true ∧ e.write = true ∧ r.head? ≠ some (c!"read") ∧ r.head? ≠ some (c!"write")))

/-- Each element is related to the one at its place. -/
inductive Picks : List (List Bytes) → List Entry → Prop
  | nil : Picks [] []
  | hit {t : List Bytes} {ts : List (List Bytes)} {e : Entry} {es : List Entry} : Says t e → Picks ts es → Picks (t :: ts) (e :: es)
  | miss {t : List Bytes} {ts : List (List Bytes)} {es : List Entry} : (∀ e, ¬ Says t e) → Picks ts es → Picks (t :: ts) es

/-- The first entry of each URL. -/
def firsts : List Entry → List Entry
  | [] => []
  | e :: es => e :: (firsts es).filter fun x => x.url ≠ e.url

end Nostr.Nip65.Spec
