import Verif.Basic

/-! # Specification: nothing secret is left behind -/

namespace Nostr.Wipe.Spec
open Nostr

/-- What is left in memory, buffer by buffer, compared with what the buffers held before the call: a buffer holds what it
held before, or only zeros, or one of the public values. -/
def Clean (pub : List Bytes) : List Bytes → List Bytes → Prop
  | [], [] => True
  | b :: bs, l :: ls => (l = b ∨ l = List.replicate b.length 0 ∨ l ∈ pub) ∧ Clean pub bs ls
  | _, _ => False

theorem Clean.append {pub : List Bytes} : ∀ {b l b' l' : List Bytes}, Clean pub b l → Clean pub b' l' → Clean pub (b ++ b') (l ++ l')
  | [], [], _, _, _, h => h
  | _ :: _, _ :: _, _, _, h, h' => ⟨h.1, h.2.append h'⟩

theorem Clean.mono {pub pub' : List Bytes} (hp : ∀ x ∈ pub, x ∈ pub') : ∀ {b l : List Bytes}, Clean pub b l → Clean pub' b l
  | [], [], _ => trivial
  | _ :: _, _ :: _, h => ⟨h.1.imp_right fun h => h.imp_right (hp _), h.2.mono hp⟩

theorem Clean.refl {pub : List Bytes} : ∀ (b : List Bytes), Clean pub b b
  | [] => trivial
  | _ :: bs => ⟨.inl rfl, .refl bs⟩

/-- Two calls that use the same buffers one after the other. -/
theorem Clean.trans {pub : List Bytes} : ∀ {b l m : List Bytes}, Clean pub b l → l.map List.length = b.map List.length → Clean pub l m → Clean pub b m
  | [], [], [], _, _, _ => trivial
  | b :: bs, l :: ls, m :: ms, h, hl, h' => by
      simp only [List.map_cons, List.cons.injEq] at hl
      refine ⟨?_, h.2.trans hl.2 h'.2⟩
      rcases h'.1 with e | e | e
      · rw [e]; exact h.1
      · exact .inr (.inl (by rw [e, hl.1]))
      · exact .inr (.inr e)

end Nostr.Wipe.Spec
