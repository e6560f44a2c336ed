import Verif.Filter.HeapLemmas

/-! # Owning blocks of the heap

Lemmas for functions that build up structures of several blocks. -/

namespace Nostr.Own
open Nostr Nostr.Heap Nostr.Filter.Own

/-- `h` is `h0` plus the live, pairwise distinct new blocks `own`. -/
structure Owned (h0 : Mem) (h : Mem) (own : List Nat) : Prop where
  nodup : own.Nodup
  fresh : ∀ a ∈ own, h0 a = none
  live : ∀ a ∈ own, h a ≠ none
  same : ∀ a, a ∉ own → h a = h0 a

theorem Owned.nil (m : Mem) : Owned m m [] := ⟨.nil, by simp, by simp, fun _ _ => rfl⟩

theorem Owned.perm {h0 h : Mem} {a b : List Nat} (o : Owned h0 h a) (p : a.Perm b) : Owned h0 h b :=
  ⟨p.nodup_iff.1 o.nodup, fun x hx => o.fresh x (p.mem_iff.2 hx), fun x hx => o.live x (p.mem_iff.2 hx),
    fun x hx => o.same x fun h => hx (p.mem_iff.1 h)⟩

theorem Owned.eq {h0 h : Mem} (o : Owned h0 h []) : h = h0 := funext fun a => o.same a (by simp)

/-- A new block. -/
theorem Owned.new {h0 h : Mem} {own : List Nat} (o : Owned h0 h own) {c : Nat} (hc : h c = none) (v : Obj) :
    Owned h0 (upd h c (some v)) (c :: own) := by
  have hn : c ∉ own := fun hm => o.live c hm hc
  refine ⟨List.nodup_cons.2 ⟨hn, o.nodup⟩, ?_, ?_, ?_⟩
  · intro a ha
    rcases List.mem_cons.1 ha with rfl | ha
    · rw [← o.same _ hn]; exact hc
    · exact o.fresh a ha
  · intro a ha
    rcases List.mem_cons.1 ha with rfl | ha
    · simp
    · rw [upd_other _ _ (fun e : a = c => hn (e ▸ ha))]; exact o.live a ha
  · intro a ha
    simp only [List.mem_cons, not_or] at ha
    rw [upd_other _ _ ha.1]; exact o.same a ha.2

/-- A block whose contents change. -/
theorem Owned.write {h0 h : Mem} {own : List Nat} (o : Owned h0 h own) {c : Nat} (hc : c ∈ own) (v : Obj) :
    Owned h0 (upd h c (some v)) own := by
  refine ⟨o.nodup, o.fresh, ?_, ?_⟩
  · intro a ha
    by_cases h : a = c
    · rw [h]; simp
    · rw [upd_other _ _ h]; exact o.live a ha
  · intro a ha
    rw [upd_other _ _ (by rintro rfl; exact ha hc)]; exact o.same a ha

/-- Blocks that are released. -/
theorem Owned.drop {h0 h : Mem} {a b : List Nat} (o : Owned h0 h (a ++ b)) : Owned h0 (without h a) b := by
  have hn := List.nodup_append.1 o.nodup
  refine ⟨hn.2.1, fun x hx => o.fresh x (List.mem_append_right _ hx), ?_, ?_⟩
  · intro x hx
    rw [without_other _ (fun ha => hn.2.2 x ha x hx rfl)]
    exact o.live x (List.mem_append_right _ hx)
  · intro x hx
    by_cases ha : x ∈ a
    · rw [show without h a x = none by simp [without, ha], o.fresh x (List.mem_append_left _ ha)]
    · rw [without_other _ ha]
      exact o.same x (by simp [ha, hx])

/-- `free` of one owned block. -/
theorem Owned.free {h0 : Mem} {h : Heap} {a : Nat} {b : List Nat} (o : Owned h0 h.mem (a :: b)) :
    ∃ h', Heap.free (some a) h = some ((), h') ∧ h'.mem = without h.mem [a] ∧ Owned h0 h'.mem b := by
  refine ⟨⟨upd h.mem a none, h.tick⟩, ?_, ?_, ?_⟩
  · have := o.live a (by simp)
    unfold Heap.free
    cases hm : h.mem a with
    | none => exact absurd hm this
    | some v => simp [hm]
  · funext x; by_cases h : x = a <;> simp [upd, without, h]
  · have : upd h.mem a none = without h.mem [a] := by funext x; by_cases h : x = a <;> simp [upd, without, h]
    rw [this]
    exact Owned.drop (a := [a]) o

/-- Releasing an array of strings. -/
theorem Owned.freeStrings {h0 : Mem} {h : Heap} {p n l a b} (o : Owned h0 h.mem (a ++ b)) (s : StrArr h.mem p n l a) :
    ∃ h', Heap.freeStrings p n h = some ((), h') ∧ h'.mem = without h.mem a ∧ Owned h0 h'.mem b :=
  ⟨_, freeStrings_ok s (List.nodup_append.1 o.nodup).1, rfl, o.drop⟩

/-- An optional string and its block. -/
inductive OptS (m : Mem) : Option Nat → Option Bytes → List Nat → Prop
  | null : OptS m none none []
  | str {a s} (h : m a = some (.str s)) : OptS m (some a) (some s) [a]

theorem OptS.mono {m m' : Mem} {p l o} (h : OptS m p l o) (hm : ∀ a ∈ o, m' a = m a) : OptS m' p l o := by
  cases h with
  | null => exact .null
  | str h => exact .str ((hm _ (by simp)).trans h)

theorem Owned.freeOpt {h0 : Mem} {h : Heap} {p l a b} (o : Owned h0 h.mem (a ++ b)) (s : OptS h.mem p l a) :
    ∃ h', Heap.free p h = some ((), h') ∧ h'.mem = without h.mem a ∧ Owned h0 h'.mem b := by
  cases s with
  | null => exact ⟨h, rfl, by rw [without_nil], o⟩
  | str hs => exact o.free

/-- An allocation either fails and changes nothing, or gives a new block. -/
theorem Owned.alloc {A : Alloc} (hA : Fresh A) {h0 : Mem} {h : Heap} {own : List Nat} (o : Owned h0 h.mem own) (v : Obj) :
    (∃ h', Heap.alloc A v h = some (none, h') ∧ h'.mem = h.mem ∧ Refused A h0) ∨
    ∃ c h', Heap.alloc A v h = some (some c, h') ∧ h'.mem = upd h.mem c (some v) ∧ h.mem c = none ∧
      Owned h0 h'.mem (c :: own) := by
  rcases alloc_cases hA v h with ⟨hf, hc⟩ | ⟨c, hc, hm⟩
  · exact .inl ⟨_, hc, rfl, (Refused.here hf).back o.same⟩
  · exact .inr ⟨c, _, hc, rfl, hm, o.new hm v⟩

/-- `free` of a block, or of NULL. -/
theorem freeP {h0 : Mem} {h : Heap} {p : Option Nat} {b : List Nat} (o : Owned h0 h.mem (p.toList ++ b)) :
    ∃ h', Heap.free p h = some ((), h') ∧ Owned h0 h'.mem b ∧ ∀ x ∈ b, h'.mem x = h.mem x := by
  cases p with
  | none => exact ⟨h, rfl, o, fun _ _ => rfl⟩
  | some a =>
    obtain ⟨h', e, m, o'⟩ := Owned.free (b := b) o
    refine ⟨h', e, o', fun x hx => ?_⟩
    rw [m]
    exact without_other _ (by simp only [List.mem_singleton]; rintro rfl; exact (List.nodup_cons.1 o.nodup).1 hx)

/-- An allocation fails and changes nothing, or adds a block and changes nothing else. -/
theorem allocP {A : Alloc} (hA : Fresh A) {h0 : Mem} {h : Heap} {own : List Nat} (o : Owned h0 h.mem own) (v : Obj) :
    (∃ h', Heap.alloc A v h = some (none, h') ∧ h'.mem = h.mem ∧ Refused A h0) ∨
    ∃ c h', Heap.alloc A v h = some (some c, h') ∧ h'.mem c = some v ∧ Owned h0 h'.mem (c :: own) ∧ ∀ x ∈ own, h'.mem x = h.mem x := by
  rcases o.alloc hA v with h | ⟨c, h', e, m, n, o'⟩
  · exact .inl h
  · exact .inr ⟨c, h', e, by rw [m]; simp, o', fun x hx => by rw [m]; exact upd_other _ _ (by rintro rfl; exact o.live _ hx n)⟩

/-- Several new blocks. -/
theorem Owned.extend {h0 m m' : Mem} {own new : List Nat} (o : Owned h0 m own) (hn : new.Nodup) (hf : ∀ a ∈ new, m a = none)
    (hl : ∀ a ∈ new, m' a ≠ none) (hs : ∀ a, a ∉ new → m' a = m a) :
    Owned h0 m' (new ++ own) ∧ ∀ a ∈ own, m' a = m a := by
  have hd : ∀ a ∈ own, a ∉ new := fun a ha hb => o.live a ha (hf a hb)
  refine ⟨⟨List.nodup_append.2 ⟨hn, o.nodup, fun a ha b hb e => hd b hb (e ▸ ha)⟩, ?_, ?_, ?_⟩, fun a ha => hs a (hd a ha)⟩
  · intro a ha
    rcases List.mem_append.1 ha with ha | ha
    · by_cases hb : a ∈ own
      · exact o.fresh a hb
      · rw [← o.same a hb]; exact hf a ha
    · exact o.fresh a ha
  · intro a ha
    rcases List.mem_append.1 ha with ha | ha
    · exact hl a ha
    · rw [hs a (hd a ha)]; exact o.live a ha
  · intro a ha
    simp only [List.mem_append, not_or] at ha
    rw [hs a ha.1]; exact o.same a ha.2

/-- The array of a string array, with `free` slots at its end. -/
structure Arr (m : Mem) (d : Nat) (ps : List Nat) (l : List Bytes) (free : Nat) : Prop where
  arr : m d = some (.ptrs (ps.map some ++ List.replicate free none))
  strs : Strings m ps l

theorem Arr.strArr {m d ps l n} (a : Arr m d ps l n) : StrArr m (some d) ps.length l (d :: ps) := .arr a.arr a.strs

theorem Arr.mono {m m' : Mem} {d ps l n} (a : Arr m d ps l n) (h : ∀ x ∈ d :: ps, m' x = m x) : Arr m' d ps l n :=
  ⟨(h d (by simp)).trans a.arr, a.strs.mono fun x hx => h x (by simp [hx])⟩

/-- Put a new string into the next slot. -/
theorem Arr.push {h0 : Mem} {h : Heap} {d ps l n c own} {s : Bytes} (a : Arr h.mem d ps l (n + 1))
    (o : Owned h0 h.mem (c :: own)) (hd : d ∈ own) (hsub : ∀ x ∈ ps, x ∈ own) (hnd : (d :: ps).Nodup)
    (hc : h.mem c = some (.str s)) :
    ∃ h', storePtr d ps.length (some c) h = some ((), h') ∧ Arr h'.mem d (ps ++ [c]) (l ++ [s]) n ∧
      Owned h0 h'.mem (c :: own) ∧ ∀ x, x ≠ d → h'.mem x = h.mem x := by
  have hdc : d ≠ c := by rintro rfl; exact (List.nodup_cons.1 o.nodup).1 hd
  refine ⟨⟨upd h.mem d (some (.ptrs ((ps ++ [c]).map some ++ List.replicate n none))), h.tick⟩, ?_, ⟨by simp, ?_⟩,
    o.write (by simp [hd]) _, fun x hx => upd_other _ _ hx⟩
  · unfold storePtr
    rw [a.arr]
    simp only [List.length_append, List.length_map, List.length_replicate, List.replicate_succ]
    rw [if_pos (by simp)]
    congr 4
    have := set_pre (ps.map some) (some c) none (List.replicate n none)
    rw [List.length_map] at this
    rw [this]
    simp
  · refine Strings.append (a.strs.mono ?_) (.cons ?_ .nil)
    · intro x hx
      exact upd_other _ _ (by rintro rfl; exact (List.nodup_cons.1 hnd).1 hx)
    · exact (upd_other _ _ (Ne.symm hdc)).trans hc

end Nostr.Own
