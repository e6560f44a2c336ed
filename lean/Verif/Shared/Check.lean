import Verif.Shared.Lemmas
import Verif.Shared.Table

/-! # The library keeps to a discipline -/

namespace Nostr.Shared

/-- The same functions without those of the given numbers as calls of the application. -/
def without (fs : List Nat) (fns : List Fn) : List Fn :=
  fns.mapIdx fun i d => if fs.contains i then { d with entry := false } else d

/-- Functions that are called with locks taken, and those locks. -/
def extra : List (Nat × List Lock) :=
  [(Id.validate, [.config]), (Id.getDefaults, [.config]), (Id.loadEnv, [.config]), (Id.envInt, [.config]), (Id.envUint, [.config]),
   (Id.randomBytes, [.context]), (Id.getCurrent, [.table]), (Id.getCurrent, [.session, .table]), (Id.getCurrent, [.session]),
   (Id.findSession, [.table]), (Id.cleanupExpired, [.table]), (Id.compare, [.table]),
   (Id.freeConnection, [.session, .table]), (Id.freeConnection, [.session]), (Id.release, [.session, .table]),
   (Id.release, [.session]), (Id.wipe, [.session, .table]), (Id.wipe, [.session])]

def may (banned : List Nat) (f : Nat) (H : List Lock) : Bool :=
  (H == [] && !banned.contains f) || extra.contains (f, H)

/-- The rules in general. -/
def ruleAny : Var → Rule
  | .config | .configInit | .callback | .callbackData => .under .config
  | .random | .randomInit => .under .random
  | .table | .tableSize | .rateWindow | .rateCount | .sId => .under .table
  | .sConnection | .sPermissions | .sCount | .sCreated | .sUsed => .under .session
  | .featureText | .featureInit | .contextInit | .ncContext | .secpContext | .tableInit | .sActive | .sExpires => .loose

def discAny : Disc := ⟨ruleAny, fun _ => none, may [Id.findSession, Id.cleanupExpired]⟩

/-- The rules once everything has been set up. -/
def rulePrepared : Var → Rule
  | .featureText | .featureInit | .contextInit | .ncContext | .secpContext | .tableInit => .frozen
  | .table | .tableSize => .frozen
  | v => ruleAny v

def knownPrepared : Var → Option Bool
  | .featureInit | .contextInit | .tableInit => some true
  | _ => none

def discPrepared : Disc := ⟨rulePrepared, knownPrepared, may [Id.findSession, Id.cleanupExpired, Id.cleanup]⟩

/-- Do all functions keep to the discipline? -/
def keeps (D : Disc) (fns : List Fn) : Bool :=
  (List.range fns.length).all (fun f => (!D.may f [] || D.flow (bodyOf fns f) [] == some []) && (!entryOf fns f || D.may f [])) &&
    extra.all (fun x => D.flow (bodyOf fns x.1) x.2 == some x.2)

theorem bodyOf_ge {fns : List Fn} {f : Nat} (h : fns.length ≤ f) : bodyOf fns f = .skip := by
  simp [bodyOf, List.getElem?_eq_none h]

theorem entryOf_ge {fns : List Fn} {f : Nat} (h : fns.length ≤ f) : entryOf fns f = false := by
  simp [entryOf, List.getElem?_eq_none h]

theorem keeps_spec {D : Disc} {banned : List Nat} {fns : List Fn} (hm : D.may = may banned)
    (hf : ∀ v b, D.known v = some b → D.rule v = .frozen) (hs : ∀ v, D.rule v = .under .session ∨ D.rule v = .both → v.ofSession = true)
    (h : keeps D fns = true) : D.Keeps fns := by
  obtain ⟨h1, h2⟩ := (Bool.and_eq_true _ _).mp h
  have h1' := List.all_eq_true.mp h1
  have h2' := List.all_eq_true.mp h2
  refine ⟨fun f H e => ?_, fun f e => ?_, hf, hs⟩
  · have e' := e
    rw [hm, may, Bool.or_eq_true] at e
    rcases e with e | e
    · obtain ⟨e1, _⟩ := (Bool.and_eq_true _ _).mp e
      have e1 : H = [] := by simpa using e1
      subst e1
      by_cases hl : f < fns.length
      · have := (Bool.and_eq_true _ _).mp (h1' f (List.mem_range.mpr hl))
        have := this.1
        rw [e'] at this
        simpa using this
      · rw [bodyOf_ge (Nat.le_of_not_lt hl)]; rfl
    · have := h2' (f, H) (by simpa using e)
      simpa using this
  · by_cases hl : f < fns.length
    · have := ((Bool.and_eq_true _ _).mp (h1' f (List.mem_range.mpr hl))).2
      rw [e] at this
      simpa using this
    · rw [entryOf_ge (Nat.le_of_not_lt hl)] at e; exact nomatch e

theorem keepsAny : discAny.Keeps (library .skip) :=
  keeps_spec rfl (fun _ _ h => nomatch h) (fun v h => by cases v <;> first | rfl | (rcases h with h | h <;> exact nomatch h)) (by decide +kernel)

theorem keepsPrepared : discPrepared.Keeps (without [Id.cleanup] (library .skip)) :=
  keeps_spec rfl (fun v _ h => by cases v <;> first | rfl | exact nomatch h)
    (fun v h => by cases v <;> first | rfl | (rcases h with h | h <;> exact nomatch h)) (by decide +kernel)

end Nostr.Shared
