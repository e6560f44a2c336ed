import Verif.Config.Threads
import Verif.Config.Spec

/-! # Vocabulary for the configuration used by several threads -/

namespace Nostr.Config.Threads.Spec
open Nostr Nostr.Config Nostr.Config.Spec Nostr.Config.Threads

/-- One call all at once: what it changes and what it answers. The state is the configuration in force, if any, and whether there is a
callback. -/
def answer (s : Option Config × Bool) : Op → (Option Config × Bool) × Ans
  | .get => (s, .got s.1)
  | .setCallback b => ((s.1, b), .code (.ok ()) none)
  | .update c =>
      match s.1 with
      | none => (s, .code (.err .notFound) none)
      | some x =>
          if InRange c then ((some c, s.2), .code (.ok ()) (if s.2 then some (x, c) else none))
          else (s, .code (.err .invalidParam) none)
  | .init c env n =>
      match s.1 with
      | some _ => (s, .code (.ok ()) none)
      | none =>
          if InRange (c.getD (loadEnv env defaults)) then ((some (c.getD (loadEnv env defaults)), s.2), .code n none)
          else (s, .code (.err .invalidParam) none)

/-- The answers are those of the same calls made one after the other, in this order. -/
def OneByOne (s : Option Config × Bool) : List (Nat × Op × Ans) → Prop
  | [] => True
  | (_, o, a) :: r => (answer s o).2 = a ∧ OneByOne (answer s o).1 r

/-- The thread is between taking and giving back the lock, where it uses the shared variables. -/
def Inside : Pc → Prop
  | .idle | .ask _ => False
  | _ => True

end Nostr.Config.Threads.Spec
