import Verif.Arena.Spec

/-! # Lemmas about the tag memory -/

namespace Nostr.Arena
open Nostr

/-! ## What the memory contains -/

/-- Two ranges have no common address. -/
def Apart (a n b k : Nat) : Prop := a + n ≤ b ∨ b + k ≤ a

theorem readPtr_iff {m : Mem} {a p : Nat} : readPtr m a = .ok p ↔ PtrAt m a p := by
  unfold readPtr PtrAt
  constructor
  · intro h
    split at h
    · rename_i q hq
      split at h
      · rename_i hs
        simp only [Res.ok.injEq] at h
        subst h
        obtain ⟨h1, h2, h3, h4, h5, h6, h7⟩ := hs
        intro k hk
        match k, hk with
        | 0, _ => exact hq
        | 1, _ => exact h1
        | 2, _ => exact h2
        | 3, _ => exact h3
        | 4, _ => exact h4
        | 5, _ => exact h5
        | 6, _ => exact h6
        | 7, _ => exact h7
        | n + 8, hk => omega
      · exact absurd h (by simp)
    · exact absurd h (by simp)
  · intro h
    have h0 := h 0 (by omega)
    simp only [Nat.add_zero] at h0
    rw [h0]
    simp [h 1 (by omega), h 2 (by omega), h 3 (by omega), h 4 (by omega), h 5 (by omega), h 6 (by omega),
      h 7 (by omega)]

theorem mapped_iff {m : Mem} {a n : Nat} : mapped m a n = true ↔ ∀ x, a ≤ x → x < a + n → m x ≠ none := by
  induction n generalizing a with
  | zero => simp [mapped]; intro x h1 h2; omega
  | succ n ih =>
      simp only [mapped, Bool.and_eq_true, ih, Option.isSome_iff_ne_none]
      constructor
      · rintro ⟨h1, h2⟩ x hx hx2
        rcases Nat.lt_or_ge a x with h | h
        · exact h2 x (by omega) (by omega)
        · have : x = a := by omega
          subst this; exact h1
      · intro h
        exact ⟨h a (by omega) (by omega), fun x hx hx2 => h x (by omega) (by omega)⟩

theorem writePtr_ok {m : Mem} {a p : Nat} (h : ∀ x, a ≤ x → x < a + 8 → m x ≠ none) :
    ∃ m', writePtr m a p = .ok m' ∧ PtrAt m' a p ∧ (∀ x, x < a ∨ a + 8 ≤ x → m' x = m x) ∧
      (∀ x, m' x = none ↔ m x = none) := by
  refine ⟨_, by rw [writePtr, if_pos (mapped_iff.2 h)], ?_, ?_, ?_⟩
  · intro k hk
    simp only
    rw [if_pos ⟨by omega, by omega⟩, Nat.add_sub_cancel_left]
  · intro x hx
    rw [if_neg (by omega)]
  · intro x
    split
    · rename_i hx
      simp [h x hx.1 hx.2]
    · rfl

/-! ## Frames -/

theorem PtrAt.frame {m m' : Mem} {a p : Nat} (h : PtrAt m a p) (e : ∀ x, a ≤ x → x < a + 8 → m' x = m x) :
    PtrAt m' a p := by
  intro k hk
  rw [e _ (by omega) (by omega)]
  exact h k hk

theorem PtrsAt.frame {m m' : Mem} {a : Nat} {ps : List Nat} (h : PtrsAt m a ps)
    (e : ∀ x, a ≤ x → x < a + 8 * ps.length → m' x = m x) : PtrsAt m' a ps := by
  induction ps generalizing a with
  | nil => trivial
  | cons p ps ih =>
      simp only [List.length_cons] at e
      exact ⟨h.1.frame (fun x h1 h2 => e x h1 (by omega)), ih h.2 (fun x h1 h2 => e x (by omega) (by omega))⟩

theorem StrAt.frame {m m' : Mem} {a : Nat} {s : Bytes} (h : StrAt m a s)
    (e : ∀ x, a ≤ x → x < a + s.length + 1 → m' x = m x) : StrAt m' a s := by
  induction s generalizing a with
  | nil =>
      simp only [List.length_nil] at e
      show m' a = _
      rw [e a (by omega) (by omega)]; exact h
  | cons b s ih =>
      simp only [List.length_cons] at e
      refine ⟨?_, h.2.1, ih h.2.2 (fun x h1 h2 => e x (by omega) (by omega))⟩
      rw [e a (by omega) (by omega)]; exact h.1

theorem PtrAt.map {m m' : Mem} {a a' p : Nat} (h : PtrAt m a p) (e : ∀ k < 8, m' (a' + k) = m (a + k)) :
    PtrAt m' a' p := fun k hk => by rw [e k hk]; exact h k hk

theorem PtrsAt.map {m m' : Mem} {a a' : Nat} {ps : List Nat} (h : PtrsAt m a ps)
    (e : ∀ k < 8 * ps.length, m' (a' + k) = m (a + k)) : PtrsAt m' a' ps := by
  induction ps generalizing a a' with
  | nil => trivial
  | cons p ps ih =>
      simp only [List.length_cons] at e
      refine ⟨h.1.map (fun k hk => e k (by omega)), ih h.2 (fun k hk => ?_)⟩
      have := e (8 + k) (by omega)
      rwa [← Nat.add_assoc, ← Nat.add_assoc] at this

theorem StrAt.map {m m' : Mem} {a a' : Nat} {s : Bytes} (h : StrAt m a s)
    (e : ∀ k < s.length + 1, m' (a' + k) = m (a + k)) : StrAt m' a' s := by
  induction s generalizing a a' with
  | nil =>
      have := e 0 (by simp)
      exact this.trans h
  | cons b s ih =>
      simp only [List.length_cons] at e
      refine ⟨(e 0 (by omega)).trans h.1, h.2.1, ih h.2.2 (fun k hk => ?_)⟩
      have := e (1 + k) (by omega)
      rwa [← Nat.add_assoc, ← Nat.add_assoc] at this

theorem PtrAt.mapped {m : Mem} {a p : Nat} (h : PtrAt m a p) (x : Nat) (h1 : a ≤ x) (h2 : x < a + 8) :
    m x ≠ none := by
  have := h (x - a) (by omega)
  rw [Nat.add_sub_cancel' h1] at this
  simp [this]

theorem StrAt.mapped {m : Mem} {a : Nat} {s : Bytes} (h : StrAt m a s) (x : Nat) (h1 : a ≤ x)
    (h2 : x < a + s.length + 1) : m x ≠ none := by
  induction s generalizing a with
  | nil =>
      have : x = a := by simp at h2; omega
      subst this
      rw [show m x = _ from h]; simp
  | cons b s ih =>
      simp only [List.length_cons] at h2
      rcases Nat.lt_or_ge a x with hx | hx
      · exact ih h.2.2 (by omega) (by omega)
      · have : x = a := by omega
        subst this
        rw [h.1]; simp

theorem PtrsAt.mapped {m : Mem} {a : Nat} {ps : List Nat} (h : PtrsAt m a ps) (x : Nat) (h1 : a ≤ x)
    (h2 : x < a + 8 * ps.length) : m x ≠ none := by
  induction ps generalizing a with
  | nil => simp at h2; omega
  | cons p ps ih =>
      simp only [List.length_cons] at h2
      rcases Nat.lt_or_ge x (a + 8) with hx | hx
      · exact h.1.mapped x h1 hx
      · exact ih h.2 hx (by omega)

theorem StrAt.cstr {m : Mem} {a : Nat} {s : Bytes} (h : StrAt m a s) : CStr s := by
  induction s generalizing a with
  | nil => simp [CStr]
  | cons b s ih =>
      intro hm
      rcases List.mem_cons.1 hm with h0 | h0
      · exact h.2.1 h0.symm
      · exact ih h.2.2 h0

theorem strlen_ok {m : Mem} {a f : Nat} {s : Bytes} (h : StrAt m a s) (hf : s.length < f) :
    strlen m f a = .ok s.length := by
  induction s generalizing a f with
  | nil =>
      cases f with
      | zero => simp at hf
      | succ f => simp [strlen, show m a = _ from h]
  | cons b s ih =>
      cases f with
      | zero => simp at hf
      | succ f =>
          simp only [List.length_cons] at hf
          simp [strlen, h.1, h.2.1, ih h.2.2 (show s.length < f by omega)]

theorem readStr_ok {m : Mem} {a f : Nat} {s : Bytes} (h : StrAt m a s) (hf : s.length < f) :
    readStr m f a = .ok s := by
  induction s generalizing a f with
  | nil =>
      cases f with
      | zero => simp at hf
      | succ f => simp [readStr, show m a = _ from h]
  | cons b s ih =>
      cases f with
      | zero => simp at hf
      | succ f =>
          simp only [List.length_cons] at hf
          simp [readStr, h.1, h.2.1, ih h.2.2 (show s.length < f by omega)]

/-! ## Rewriting the pointers -/

/-- The pointer after the move. -/
def moved (ob nb p : Nat) : Nat := if p = 0 then 0 else shift ob nb p

theorem movePtrs_ok (ob nb : Nat) {m : Mem} {a : Nat} {ps : List Nat} (h : PtrsAt m a ps) :
    ∃ m', movePtrs ob nb m a ps.length = .ok m' ∧ PtrsAt m' a (ps.map (moved ob nb)) ∧
      (∀ x, x < a ∨ a + 8 * ps.length ≤ x → m' x = m x) ∧ (∀ x, m' x = none ↔ m x = none) := by
  induction ps generalizing m a with
  | nil => exact ⟨m, rfl, trivial, fun _ _ => rfl, fun _ => Iff.rfl⟩
  | cons p ps ih =>
      simp only [List.length_cons, movePtrs]
      rw [readPtr_iff.2 h.1, Res.bind_ok]
      by_cases hp : p = 0
      · obtain ⟨m', e, h1, h2, h3⟩ := ih h.2
        refine ⟨m', by rw [if_pos hp]; exact e, ⟨?_, h1⟩, fun x hx => h2 x (by omega), h3⟩
        simp only [moved, hp]
        rw [hp] at h
        exact h.1.frame (fun x hx hx2 => h2 x (by omega))
      · obtain ⟨m1, e1, w1, w2, w3⟩ := writePtr_ok (p := shift ob nb p) h.1.mapped
        obtain ⟨m', e, h1, h2, h3⟩ := ih (h.2.frame (m' := m1) (fun x hx _ => w2 x (by omega)))
        refine ⟨m', by rw [if_neg hp, e1, Res.bind_ok]; exact e, ⟨?_, h1⟩, fun x hx => ?_, fun x => ?_⟩
        · simp only [moved, if_neg hp]
          exact w1.frame (fun x hx hx2 => h2 x (by omega))
        · rw [h2 x (by omega), w2 x (by omega)]
        · rw [h3, w3]

/-- One tag: the address of its array, and its values (an address with its text, or NULL). -/
structure Obj where
  addr : Nat
  vals : List (Nat × Option Bytes)

/-- The pointers of a tag. -/
def Obj.ptrs (o : Obj) : List Nat := o.vals.map Prod.fst

@[simp] theorem Obj.ptrs_length (o : Obj) : o.ptrs.length = o.vals.length := by simp [Obj.ptrs]

/-- The arrays of two tags have no common address. -/
def Obj.Away (o o' : Obj) : Prop := Apart o.addr (8 * o.vals.length) o'.addr (8 * o'.vals.length)

/-- The tag after the block has been moved. -/
def Obj.move (ob nb : Nat) (o : Obj) : Obj :=
  { addr := shift ob nb o.addr, vals := o.vals.map fun q => (moved ob nb q.1, q.2) }

/-- A tag as an element of `event->tags`. -/
def Obj.tag (o : Obj) : Nat × Nat := (o.addr, o.vals.length)

theorem Obj.move_ptrs (ob nb : Nat) (o : Obj) : (o.move ob nb).ptrs = o.ptrs.map (moved ob nb) := by
  simp [Obj.move, Obj.ptrs, Function.comp_def]

theorem Obj.move_length (ob nb : Nat) (o : Obj) : (o.move ob nb).vals.length = o.vals.length := by
  simp [Obj.move]

theorem moveTags_ok (ob nb : Nat) {m : Mem} {os : List Obj}
    (h : ∀ o ∈ os, PtrsAt m (shift ob nb o.addr) o.ptrs)
    (hp : os.Pairwise fun o o' => (o.move ob nb).Away (o'.move ob nb)) :
    ∃ m', moveTags ob nb m (os.map Obj.tag) = .ok (m', (os.map (Obj.move ob nb)).map Obj.tag) ∧
      (∀ o ∈ os.map (Obj.move ob nb), PtrsAt m' o.addr o.ptrs) ∧
      (∀ x, (∀ o ∈ os, x < shift ob nb o.addr ∨ shift ob nb o.addr + 8 * o.vals.length ≤ x) → m' x = m x) ∧
      (∀ x, m' x = none ↔ m x = none) := by
  induction os generalizing m with
  | nil => exact ⟨m, rfl, by simp, fun _ _ => rfl, fun _ => Iff.rfl⟩
  | cons o os ih =>
      obtain ⟨m1, e1, p1, f1, n1⟩ := movePtrs_ok ob nb (h o (by simp))
      rw [Obj.ptrs_length] at e1 f1
      have hw := List.pairwise_cons.1 hp
      obtain ⟨m', e, h1, h2, h3⟩ := ih (m := m1) (fun o' ho' => (h o' (by simp [ho'])).frame (fun x hx hx2 => by
        apply f1
        have ha := hw.1 o' ho'
        simp only [Obj.Away, Apart, Obj.move, List.length_map] at ha
        rw [Obj.ptrs_length] at hx2
        omega)) hw.2
      refine ⟨m', ?_, ?_, ?_, fun x => by rw [h3, n1]⟩
      · show (movePtrs ob nb m (shift ob nb o.addr) o.vals.length >>= _) = _
        rw [e1, Res.bind_ok, e]
        simp [Obj.tag, Obj.move]
      · intro o' ho'
        simp only [List.map_cons, List.mem_cons] at ho'
        rcases ho' with rfl | ho'
        · rw [Obj.move_ptrs]
          refine p1.frame (fun x hx hx2 => h2 x (fun o' ho' => ?_))
          have ha := hw.1 o' ho'
          simp only [Obj.Away, Apart, Obj.move, List.length_map] at ha
          simp only [List.length_map, Obj.ptrs_length] at hx2
          omega
        · exact h1 o' ho'
      · intro x hx
        rw [h2 x (fun o' ho' => hx o' (by simp [ho'])), f1 x (hx o (by simp))]

end Nostr.Arena
