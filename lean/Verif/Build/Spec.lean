import Verif.Build.Tables
import Verif.Features.Model

/-! # Complete builds

What a user of the build system relies on, over the table of names. -/

namespace Nostr.Build
open Nostr

/-- The file is compiled and the conditions around the line hold: the definition is in the library. -/
def Def.Live (x : Vars) (q : Def) : Prop := (source q.file).eval x = true ∧ q.guard.eval x = true

/-- The use is in the library. -/
def Ref.Live (x : Vars) (r : Ref) : Prop := (source r.file).eval x = true ∧ r.guard.eval x = true

/-- Whether a definition is visible in a file: a `static` one only in its own. -/
def Def.Seen (f : File) (q : Def) : Prop := q.isStatic = true → q.file = f

/-- Every name used in the library has a definition there. -/
def Complete (x : Vars) : Prop :=
  ∀ e ∈ names, ∀ r ∈ e.refs, r.Live x → ∃ q ∈ e.defs, q.Seen r.file ∧ q.Live x

/-- Two definitions that would collide if both were compiled. -/
def Collide (p q : Def) : Prop := (p.isStatic = false ∧ q.isStatic = false) ∨ p.file = q.file

/-- The four conditions under which the sources fit together. -/
def Fits (x : Vars) : Prop :=
  (x .nip17 = true ∨ x .nip47 = true ∨ x .nip59 = true → x .nip44 = true ∨ x .nip04 = true) ∧
  (x .nip18 = true ∨ x .nip49 = true → x .encoding = true) ∧
  (x .hdKeys = true → x .haveSecp = true) ∧
  (x .relay = true → x .haveCjson = true)

/-- The library has the function. -/
def Present (x : Vars) (e : Name) : Prop := ∃ q ∈ e.defs, q.isStatic = false ∧ q.Live x

/-- The library has the function, and it is not a placeholder. -/
def Works (x : Vars) (e : Name) : Prop := ∃ q ∈ e.defs, q.isStatic = false ∧ q.Live x ∧ q.body = .works

/-- What the program that asks the library about itself (`Verif/Features`) is compiled with. -/
def toConfig (x : Vars) : Features.Config := fun f =>
  let def? := fun v => (d v).eval x
  match f with
  | .encoding => def? .encoding
  | .relay => def? .relay
  | .relayProtocol => def? .relayProtocol
  | .hdKeys => def? .hdKeys
  | .jsonEnhanced => def? .jsonEnhanced
  | .threading => def? .threading
  | .nip n => match n with
    | 4 => def? .nip04 | 5 => def? .nip05 | 10 => def? .nip10 | 13 => def? .nip13 | 17 => def? .nip17
    | 18 => def? .nip18 | 25 => def? .nip25 | 26 => def? .nip26 | 44 => def? .nip44 | 46 => def? .nip46
    | 47 => def? .nip47 | 49 => def? .nip49 | 51 => def? .nip51 | 57 => def? .nip57 | 59 => def? .nip59
    | 65 => def? .nip65 | _ => false

/-- The NIPs the library can be asked about, with the files that implement them. -/
def nipFiles : List (Int × List File) :=
  [ (4, [.nip44]), (5, [.nip05]), (10, [.nip10]), (13, [.nip13]), (17, [.nip17]), (25, [.nip25]), (44, [.nip44]),
    (46, [.nip46]), (47, [.nip47, .nip47_session, .nip47_commands]), (49, [.nip49]), (51, [.nip51]), (57, [.zap]),
    (59, [.nip59]), (65, [.nip65]) ]

end Nostr.Build
