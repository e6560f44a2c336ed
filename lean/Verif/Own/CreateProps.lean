import Verif.Own.Create
import Verif.Own.EvProps
import Verif.Own.TreeProps

/-!
# C188: a failed creation of a relay, and the memory of parallel mining
-/

namespace Nostr.Own.Create.Props
open Nostr Nostr.Heap Nostr.Own Nostr.Own.Create

/-- **C188** (relays). Creating a relay gives a relay whose address is the text given, or an error because memory was refused; then
memory is as before. Destroying the relay made gives all its memory back. Missing: the variable is NULL after an error only if it was the
first allocation that was refused (`C188_relay_refuted`). -/
theorem C188_relay_partial {A : Alloc} (hA : Fresh A) (url : Bytes) (h : Heap) :
    (∃ p u h', relayInto A url h = some ((none, some p), h') ∧ Owned h.mem h'.mem [p, u] ∧ h'.mem p = some (.ptrs [some u]) ∧
      h'.mem u = some (.str url) ∧ ∃ h'', relayDestroy (some p) h' = some ((), h'') ∧ h''.mem = h.mem) ∨
    (∃ v h', relayInto A url h = some ((some .memory, v), h') ∧ h'.mem = h.mem ∧ Refused A h.mem ∧
      (A h.mem h.tick = none → v = none) ∧ (∀ p, v = some p → h'.mem p = none)) := by
  rcases Filter.Own.alloc_cases hA (.ptrs [none]) h with ⟨hf, e0⟩ | ⟨p, e0, hp⟩
  · exact .inr ⟨none, ⟨h.mem, h.tick + 1⟩, by simp only [relayInto, M.bind, e0, Option.bind_some]; rfl, rfl, Refused.here hf, fun _ => rfl, by simp⟩
  · have hne : A h.mem h.tick ≠ none := by
      intro hn
      simp [Heap.alloc, hn] at e0
    have o1 := (Owned.nil h.mem).new hp (.ptrs [none])
    rcases o1.alloc (h := ⟨upd h.mem p (some (.ptrs [none])), h.tick + 1⟩) hA (.str url) with ⟨h2, e2, m2, rf⟩ | ⟨u, h2, e2, m2, n2, o2⟩
    · have o1' : Owned h.mem h2.mem [p] := by rw [m2]; exact o1
      obtain ⟨h3, e3, -, o3⟩ := Owned.free o1'
      exact .inr ⟨some p, h3, by simp only [relayInto, M.bind, e0, e2, e3, Option.bind_some]; rfl, o3.eq, rf, fun hn => absurd hn hne,
        fun q hq => by cases hq; rw [o3.eq]; exact hp⟩
    · left
      have hup : u ≠ p := by
        rintro rfl
        have := n2
        simp [upd] at this
      have m2p : h2.mem p = some (.ptrs [none]) := by rw [m2, upd_other _ _ (Ne.symm hup)]; simp [upd]
      have m2u : h2.mem u = some (.str url) := by rw [m2]; simp [upd]
      have e3 : storePtr p 0 (some u) h2 = some ((), ⟨upd h2.mem p (some (.ptrs [some u])), h2.tick⟩) := by
        simp [storePtr, m2p]
      have o3 : Owned h.mem (upd h2.mem p (some (.ptrs [some u]))) [u, p] := Owned.write o2 (by simp) _
      obtain ⟨h4, e4, -, o4⟩ := Owned.free (h := ⟨upd h2.mem p (some (.ptrs [some u])), h2.tick⟩) o3
      obtain ⟨h5, e5, -, o5⟩ := Owned.free o4
      refine ⟨p, u, _, by simp only [relayInto, M.bind, e0, e2, e3, Option.bind_some]; rfl, o3.perm (List.Perm.swap _ _ _), by simp [upd], ?_,
        h5, ?_, o5.eq⟩
      · rw [show (⟨upd h2.mem p (some (.ptrs [some u])), h2.tick⟩ : Heap).mem u = _ from upd_other _ _ hup]
        exact m2u
      · have el : loadPtr (some p) 0 ⟨upd h2.mem p (some (.ptrs [some u])), h2.tick⟩ =
            some (some u, ⟨upd h2.mem p (some (.ptrs [some u])), h2.tick⟩) := by simp [loadPtr, upd]
        simp only [relayDestroy, M.bind, el, e4, e5, Option.bind_some]

example : ∃ r h', relayInto (Filter.Props.failAt 9) (c!"wss://a") Tree.Props.empty = some (r, h') ∧ r.1 = none :=
  ⟨_, _, rfl, rfl⟩

/-- C188 fails: when there is no memory for the address, the variable keeps the address of the structure just released, and a caller who
destroys what it holds uses released memory. -/
theorem C188_relay_refuted : ∃ A h h' p, Fresh A ∧ relayInto A (c!"wss://a") h = some ((some .memory, some p), h') ∧ h'.mem p = none ∧
    relayDestroy (some p) h' = none :=
  ⟨_, Tree.Props.empty, _, _, Own.Ev.Props.failAt_fresh 1, rfl, by decide, rfl⟩

/-- **C188** (parallel mining). However the search ends, and wherever memory is refused, the arrays are given back and nothing else is
touched; an error for lack of memory is reported only if memory was refused, and otherwise the result is that of the search. -/
theorem C188_mining {A : Alloc} (hA : Fresh A) (n : Nat) (w : Work) (h : Heap) :
    ∃ r h', mine A n w h = some (r, h') ∧ h'.mem = h.mem ∧
      ((r = some .memory ∧ Refused A h.mem) ∨
        r = (match w with | .noThread _ => some .protocol | .found => none | .notFound => some .notFound)) := by
  rcases allocP hA (Owned.nil h.mem) (.ptrs (List.replicate n none)) with ⟨h1, e1, m1, rf1⟩ | ⟨t, h1, e1, -, o1, -⟩
  · have o1 : Owned h.mem h1.mem [] := by rw [m1]; exact Owned.nil _
    rcases allocP hA o1 (.ptrs (List.replicate n none)) with ⟨h2, e2, m2, -⟩ | ⟨d, h2, e2, -, o2, -⟩
    · exact ⟨_, h2, by simp only [mine, M.bind, e1, e2, Option.bind_some]; rfl, m2.trans m1, .inl ⟨rfl, rf1⟩⟩
    · obtain ⟨h3, e3, -, o3⟩ := Owned.free o2
      have en : Heap.free none h2 = some ((), h2) := rfl
      exact ⟨_, h3, by simp only [mine, M.bind, e1, e2, en, e3, Option.bind_some]; rfl, o3.eq, .inl ⟨rfl, rf1⟩⟩
  · rcases allocP hA o1 (.ptrs (List.replicate n none)) with ⟨h2, e2, m2, rf⟩ | ⟨d, h2, e2, -, o2, -⟩
    · have o2 : Owned h.mem h2.mem [t] := by rw [m2]; exact o1
      obtain ⟨h3, e3, -, o3⟩ := Owned.free o2
      exact ⟨_, h3, by simp only [mine, M.bind, e1, e2, e3, Option.bind_some]; rfl, o3.eq, .inl ⟨rfl, rf⟩⟩
    · obtain ⟨h3, e3, -, o3⟩ := Owned.free (o2.perm (List.Perm.swap _ _ _))
      obtain ⟨h4, e4, -, o4⟩ := Owned.free o3
      exact ⟨_, h4, by simp only [mine, M.bind, e1, e2, e3, e4, Option.bind_some]; rfl, o4.eq, .inr rfl⟩

example : ∃ h', mine (Filter.Props.failAt 1) 4 .found Tree.Props.empty = some (some .memory, h') := ⟨_, rfl⟩

example : ∃ h', mine (Filter.Props.failAt 2) 4 .found Tree.Props.empty = some (none, h') := ⟨_, rfl⟩

end Nostr.Own.Create.Props
