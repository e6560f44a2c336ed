import Verif.Shared.Model

/-! # Collisions and waiting, independently of what functions do -/

namespace Nostr.Shared

/-- The worlds that can come about from `w`: any thread takes any step that is possible. -/
inductive Reach (fns : List Fn) (w : World) : World → Prop
  | refl : Reach fns w w
  | step {u v : World} (c i : Nat) : Reach fns w u → next fns c i u = some v → Reach fns w v

/-- Two threads are about to touch the same variable, at least one of them writing: for members of sessions, of the same session. -/
def World.Race (w : World) (v : Var) : Prop :=
  ∃ i j, i ≠ j ∧ ∃ a b, (w.threads i).access = some (v, a) ∧ (w.threads j).access = some (v, b) ∧ (a = true ∨ b = true) ∧
    (v.ofSession = true → (w.threads i).cur = (w.threads j).cur)

/-- Thread `i` waits for a lock that thread `j` has. -/
def World.Waits (w : World) (i j : Nat) : Prop :=
  ∃ l k, (w.threads i).todo = .lock l :: k ∧ w.owner l ((w.threads i).num l) = some j

/-- A chain of threads, each waiting for a lock of the next. -/
inductive World.Chain (w : World) : Nat → Nat → Prop
  | here (i : Nat) : Chain w i i
  | more {i j k : Nat} : w.Waits i j → Chain w j k → Chain w i k

/-- Before the first call: no thread is in the library, no lock is taken; `flags` are set. -/
def World.outside (flags : Var → Bool) : World := ⟨fun _ => ⟨[], 0⟩, fun _ _ => none, flags⟩

end Nostr.Shared
