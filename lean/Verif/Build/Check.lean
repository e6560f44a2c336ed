import Verif.Build.Model

/-! # Deciding conditions

A condition is tested by splitting on its variables. Only the soundness of the test is used. -/

namespace Nostr.Build

/-- Negation, simplified. Not code of the repository. -/
def G.mkNot : G → G
  | .tt => .ff
  | .ff => .tt
  | g => .not g

/-- Conjunction, simplified. Not code of the repository. -/
def G.mkAnd : G → G → G
  | .ff, _ => .ff
  | .tt, b => b
  | a, .ff => (fun _ => .ff) a
  | a, .tt => a
  | a, b => .and a b

/-- Disjunction, simplified. Not code of the repository. -/
def G.mkOr : G → G → G
  | .tt, _ => .tt
  | .ff, b => b
  | a, .tt => (fun _ => .tt) a
  | a, .ff => a
  | a, b => .or a b

/-- The condition with a variable fixed. Not code of the repository. -/
def G.fix (v : Var) (b : Bool) : G → G
  | .tt => .tt
  | .ff => .ff
  | .has w => if w = v then (if b then .tt else .ff) else .has w
  | .not g => G.mkNot (g.fix v b)
  | .and g h => G.mkAnd (g.fix v b) (h.fix v b)
  | .or g h => G.mkOr (g.fix v b) (h.fix v b)

/-- Constants removed. Not code of the repository. -/
def G.clean : G → G
  | .tt => .tt
  | .ff => .ff
  | .has w => .has w
  | .not g => G.mkNot g.clean
  | .and g h => G.mkAnd g.clean h.clean
  | .or g h => G.mkOr g.clean h.clean

/-- The first variable. Not code of the repository. -/
def G.first : G → Option Var
  | .tt => none
  | .ff => none
  | .has w => some w
  | .not g => g.first
  | .and g h => match g.first with
    | some v => some v
    | none => h.first
  | .or g h => match g.first with
    | some v => some v
    | none => h.first

/-- Whether the condition is found to hold for all values of its variables. Not code of the repository. -/
def G.always : Nat → G → Bool
  | 0, _ => false
  | n + 1, g => match g with
    | .tt => true
    | .ff => false
    | g => match g.first with
      | none => false
      | some v => G.always n (g.fix v true) && G.always n (g.fix v false)

theorem G.mkNot_eval (x : Vars) (g : G) : (G.mkNot g).eval x = !g.eval x := by
  cases g <;> rfl

theorem G.mkAnd_eval (x : Vars) (a b : G) : (G.mkAnd a b).eval x = (a.eval x && b.eval x) := by
  cases a <;> cases b <;> simp [G.mkAnd, G.eval]

theorem G.mkOr_eval (x : Vars) (a b : G) : (G.mkOr a b).eval x = (a.eval x || b.eval x) := by
  cases a <;> cases b <;> simp [G.mkOr, G.eval]

theorem G.fix_eval (x : Vars) (v : Var) (g : G) : (g.fix v (x v)).eval x = g.eval x := by
  induction g with
  | tt => rfl
  | ff => rfl
  | has w =>
    unfold G.fix
    by_cases h : w = v
    · subst h; rw [if_pos rfl]; cases hx : x w <;> simp [G.eval, hx]
    · rw [if_neg h]
  | not g ih => unfold G.fix; rw [G.mkNot_eval, ih]; rfl
  | and a b iha ihb => unfold G.fix; rw [G.mkAnd_eval, iha, ihb]; rfl
  | or a b iha ihb => unfold G.fix; rw [G.mkOr_eval, iha, ihb]; rfl

theorem G.clean_eval (x : Vars) (g : G) : g.clean.eval x = g.eval x := by
  induction g with
  | tt => rfl
  | ff => rfl
  | has w => rfl
  | not g ih => unfold G.clean; rw [G.mkNot_eval, ih]; rfl
  | and a b iha ihb => unfold G.clean; rw [G.mkAnd_eval, iha, ihb]; rfl
  | or a b iha ihb => unfold G.clean; rw [G.mkOr_eval, iha, ihb]; rfl

theorem G.always_eval (n : Nat) : ∀ (g : G) (x : Vars), G.always n g = true → g.eval x = true := by
  induction n with
  | zero => intro g x h; cases h
  | succ n ih =>
    intro g x h
    have split : ∀ g : G, (match g.first with
        | none => false
        | some v => G.always n (g.fix v true) && G.always n (g.fix v false)) = true → g.eval x = true := by
      intro g h
      cases hv : g.first with
      | none => rw [hv] at h; cases h
      | some v =>
        rw [hv] at h
        rw [Bool.and_eq_true] at h
        rw [← G.fix_eval x v g]
        cases hx : x v with
        | true => exact ih _ x h.1
        | false => exact ih _ x h.2
    cases g with
    | tt => rfl
    | ff => cases h
    | has w => exact split _ h
    | not g => exact split _ h
    | and a b => exact split _ h
    | or a b => exact split _ h

/-- Whether `a` is found to imply `b`. Not code of the repository. -/
def G.gives (a b : G) : Bool := G.always 40 (G.clean (.or b (.not a)))

theorem G.gives_eval {a b : G} (h : a.gives b = true) (x : Vars) (ha : a.eval x = true) : b.eval x = true := by
  have := G.always_eval 40 _ x h
  rw [G.clean_eval] at this
  simpa [G.eval, ha] using this

end Nostr.Build
