import Verif.Basic

/-!
# C string functions: splitting and searching

`strtok_r` and `strstr` of the C library (C11 7.24.5), used throughout /repo/src.
-/

namespace Nostr.Text
open Nostr

/-- All pieces between separators, empty ones included. -/
def split (sep : UInt8) : Bytes → List Bytes
  | [] => [[]]
  | c :: s =>
      if c = sep then [] :: split sep s
      else match split sep s with
        | [] => [[c]]
        | t :: ts => (c :: t) :: ts

/-- The tokens `strtok_r` delivers one after the other: the pieces that are not empty. -/
def tokens (sep : UInt8) (s : Bytes) : List Bytes := (split sep s).filter fun t => decide (t ≠ [])

/-- `strstr(s, sub) != NULL`. -/
def contains (sub : Bytes) : Bytes → Bool
  | [] => sub.isEmpty
  | c :: s => sub.isPrefixOf (c :: s) || contains sub s

/-- Two lists of the same length, related entry by entry. -/
inductive Each {α β : Type} (R : α → β → Prop) : List α → List β → Prop
  | nil : Each R [] []
  | cons {a : α} {b : β} {as : List α} {bs : List β} : R a b → Each R as bs → Each R (a :: as) (b :: bs)

/-- Pieces put together with a separator. -/
def join (sep : UInt8) : List Bytes → Bytes
  | [] => []
  | [t] => t
  | t :: ts => t ++ sep :: join sep ts

theorem split_ne (sep : UInt8) (s : Bytes) : split sep s ≠ [] := by
  cases s with
  | nil => simp [split]
  | cons c s =>
    unfold split
    repeat' split
    all_goals simp

theorem split_piece {sep : UInt8} {t : Bytes} (h : sep ∉ t) : split sep t = [t] := by
  induction t with
  | nil => rfl
  | cons c t ih =>
    simp only [List.mem_cons, not_or] at h
    have h1 : ¬ c = sep := fun e => h.1 e.symm
    simp [split, h1, ih h.2]

theorem split_cons {sep : UInt8} {t : Bytes} (h : sep ∉ t) (s : Bytes) :
    split sep (t ++ sep :: s) = t :: split sep s := by
  induction t with
  | nil => simp [split]
  | cons c t ih =>
    simp only [List.mem_cons, not_or] at h
    have h1 : ¬ c = sep := fun e => h.1 e.symm
    simp [split, h1, ih h.2]

theorem split_join {sep : UInt8} {ts : List Bytes} (hne : ts ≠ []) (h : ∀ t ∈ ts, sep ∉ t) :
    split sep (join sep ts) = ts := by
  induction ts with
  | nil => exact absurd rfl hne
  | cons t ts ih =>
    cases ts with
    | nil => exact split_piece (h t (by simp))
    | cons u us =>
      show split sep (t ++ sep :: join sep (u :: us)) = _
      rw [split_cons (h t (by simp)), ih (by simp) (fun x hx => h x (by simp [hx]))]

theorem join_split (sep : UInt8) (s : Bytes) : join sep (split sep s) = s := by
  induction s with
  | nil => rfl
  | cons c s ih =>
    unfold split
    split
    · rename_i e
      subst e
      have := split_ne c s
      cases hs : split c s with
      | nil => exact absurd hs this
      | cons t ts => rw [hs] at ih; simp [join, ih]
    · split
      · rename_i h; exact absurd h (split_ne sep s)
      · rename_i t ts h
        rw [h] at ih
        cases ts with
        | nil => simp only [join] at ih ⊢; rw [ih]
        | cons u us => simp only [join, List.cons_append] at ih ⊢; rw [ih]

theorem mem_split {sep : UInt8} {s t : Bytes} (h : t ∈ split sep s) : sep ∉ t ∧ ∀ c ∈ t, c ∈ s := by
  induction s generalizing t with
  | nil => simp only [split, List.mem_singleton] at h; subst h; simp
  | cons c s ih =>
    unfold split at h
    split at h
    · rcases List.mem_cons.1 h with rfl | h
      · simp
      · obtain ⟨h1, h2⟩ := ih h
        exact ⟨h1, fun d hd => List.mem_cons_of_mem _ (h2 d hd)⟩
    · rename_i hc
      split at h
      · rename_i h'; exact absurd h' (split_ne sep s)
      · rename_i u us h'
        rcases List.mem_cons.1 h with rfl | h
        · obtain ⟨h1, h2⟩ := ih (t := u) (by rw [h']; simp)
          refine ⟨?_, ?_⟩
          · simp only [List.mem_cons, not_or]; exact ⟨fun e => hc e.symm, h1⟩
          · intro d hd
            rcases List.mem_cons.1 hd with rfl | hd
            · simp
            · exact List.mem_cons_of_mem _ (h2 d hd)
        · obtain ⟨h1, h2⟩ := ih (t := t) (by rw [h']; simp [h])
          exact ⟨h1, fun d hd => List.mem_cons_of_mem _ (h2 d hd)⟩

theorem tokens_join {sep : UInt8} {ts : List Bytes} (h : ∀ t ∈ ts, sep ∉ t ∧ t ≠ []) : tokens sep (join sep ts) = ts := by
  unfold tokens
  cases ts with
  | nil => simp [join, split]
  | cons t us =>
    rw [split_join (by simp) (fun x hx => (h x hx).1)]
    rw [List.filter_eq_self]
    intro x hx
    simpa using (h x hx).2

theorem mem_tokens {sep : UInt8} {s t : Bytes} (h : t ∈ tokens sep s) : sep ∉ t ∧ t ≠ [] ∧ ∀ c ∈ t, c ∈ s := by
  unfold tokens at h
  rw [List.mem_filter] at h
  obtain ⟨h1, h2⟩ := mem_split h.1
  exact ⟨h1, by simpa using h.2, h2⟩

theorem split_length (sep : UInt8) (s : Bytes) : (split sep s).length = s.count sep + 1 := by
  induction s with
  | nil => rfl
  | cons c s ih =>
    unfold split
    split
    · rename_i e; subst e; simp [ih]
    · rename_i e
      split
      · rename_i h; exact absurd h (split_ne sep s)
      · rename_i h
        rw [h] at ih
        rw [List.count_cons_of_ne e]
        simpa using ih

theorem contains_iff (sub s : Bytes) : contains sub s = true ↔ ∃ a b, s = a ++ sub ++ b := by
  induction s with
  | nil =>
    unfold contains
    rw [List.isEmpty_iff]
    constructor
    · rintro rfl; exact ⟨[], [], rfl⟩
    · rintro ⟨a, b, h⟩
      have := congrArg List.length h
      simp at this
      exact List.eq_nil_of_length_eq_zero (by omega)
  | cons c s ih =>
    unfold contains
    rw [Bool.or_eq_true, ih, List.isPrefixOf_iff_prefix]
    constructor
    · rintro (⟨b, h⟩ | ⟨a, b, h⟩)
      · exact ⟨[], b, by simpa using h.symm⟩
      · exact ⟨c :: a, b, by simp [h]⟩
    · rintro ⟨a, b, h⟩
      cases a with
      | nil => exact .inl ⟨b, by simpa using h.symm⟩
      | cons d a =>
        simp only [List.cons_append, List.cons.injEq] at h
        exact .inr ⟨a, b, h.2⟩

end Nostr.Text
