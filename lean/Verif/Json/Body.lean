import Verif.Json.Lemmas

/-! # Reading strings that were escaped by other code than cJSON -/

namespace Nostr.Json
open Nostr

/-- `raw` between quotes is read as `s`: characters stand for themselves or are escaped by a letter or by
`\u00XX`. -/
inductive Escaped : Bytes → Bytes → Prop
  | nil : Escaped [] []
  | plain {c : UInt8} {r s : Bytes} : c ≠ 0x22 → c ≠ 0x5c → Escaped r s → Escaped (c :: r) (c :: s)
  | short {p : UInt8 × UInt8} {r s : Bytes} : p ∈ shortEsc → Escaped r s → Escaped (0x5c :: p.2 :: r) (p.1 :: s)
  | code {c : UInt8} {r s : Bytes} : c.toNat < 0x20 → Escaped r s →
      Escaped (0x5c :: 0x75 :: 0x30 :: 0x30 :: Hex.digit (c.toNat / 16) :: Hex.digit (c.toNat % 16) :: r) (c :: s)

theorem digit_table : ∀ n < 16, Hex.digit n ≠ 0x22 ∧ Hex.digit n ≠ 0x5c := by decide +kernel

theorem hex4_digit : ∀ n < 256, hex4 0x30 0x30 (Hex.digit (n / 16)) (Hex.digit (n % 16)) = n := by decide +kernel

theorem Escaped.strEnd {r s : Bytes} (h : Escaped r s) (rest : Bytes) :
    strEnd (r ++ 0x22 :: rest) = some (r, rest) := by
  induction h with
  | nil => rfl
  | plain h1 h2 _ ih => rw [List.cons_append, strEnd_plain h1 h2, ih]; rfl
  | short _ _ ih => rw [List.cons_append, List.cons_append, strEnd_esc, ih]; rfl
  | @code c r s hc _ ih =>
    have h1 := digit_table (c.toNat / 16) (by omega)
    have h2 := digit_table (c.toNat % 16) (by omega)
    simp only [List.cons_append]
    rw [strEnd_esc, strEnd_plain (by decide) (by decide), strEnd_plain (by decide) (by decide),
        strEnd_plain h1.1 h1.2, strEnd_plain h2.1 h2.2, ih]; rfl

theorem Escaped.unescape {r s : Bytes} (h : Escaped r s) : ∀ f, r.length ≤ f → unescape f r = some s := by
  induction h with
  | nil => intro f _; rw [unescape.eq_def]
  | plain h1 h2 _ ih =>
    intro f hf
    simp only [List.length_cons] at hf
    obtain ⟨f, rfl⟩ : ∃ g, f = g + 1 := ⟨f - 1, by omega⟩
    rw [unescape_plain h2, ih f (by omega)]; rfl
  | @short p r s hp _ ih =>
    intro f hf
    simp only [List.length_cons] at hf
    obtain ⟨f, rfl⟩ : ∃ g, f = g + 1 := ⟨f - 1, by omega⟩
    have hu := ih f (by omega)
    simp only [shortEsc, List.mem_cons, List.not_mem_nil, or_false] at hp
    rcases hp with rfl | rfl | rfl | rfl | rfl | rfl | rfl <;>
        (rw [unescape.eq_def]; simp [hu])
  | @code c r s hc _ ih =>
    intro f hf
    simp only [List.length_cons] at hf
    obtain ⟨f, rfl⟩ : ∃ g, f = g + 1 := ⟨f - 1, by omega⟩
    rw [unescape.eq_def]
    simp only [hex4_digit c.toNat c.toNat_lt]
    rw [if_neg (by omega), if_neg (by omega), ih f (by omega)]
    simp only [utf8, Option.map_some]
    rw [if_pos (by omega), UInt8.ofNat_toNat]
    rfl

theorem Escaped.parseStr {r s : Bytes} (h : Escaped r s) (hs : CStr s) (rest : Bytes) :
    parseStr (r ++ 0x22 :: rest) = some (s, rest) := by
  unfold Json.parseStr
  rw [h.strEnd]
  simp only [h.unescape _ (Nat.le_refl _), Option.map_some, cstr_self hs]

/-- Pieces can be put together. -/
theorem Escaped.append {r s r' s' : Bytes} (h : Escaped r s) (h' : Escaped r' s') : Escaped (r ++ r') (s ++ s') := by
  induction h with
  | nil => exact h'
  | plain h1 h2 _ ih => exact .plain h1 h2 ih
  | short hp _ ih => exact .short hp ih
  | code hc _ ih => exact .code hc ih

theorem escaped_char {c : UInt8} (h : c ≠ 0) : Escaped (escChar c) [c] := by
  rcases esc_cases h with ⟨h1, h2, h3⟩ | ⟨p, hp, h1, h2⟩ | ⟨h1, -, h3, -⟩
  · rw [h1]; exact .plain h2 h3 .nil
  · rw [h1, ← h2]; exact .short hp .nil
  · rw [h1]; exact .code h3 .nil

theorem escaped_escape {s : Bytes} (h : CStr s) : Escaped (escape s) s := by
  induction s with
  | nil => exact .nil
  | cons c s ih =>
    have := (escaped_char (c := c) (fun h0 => h (by simp [h0]))).append (ih (fun h0 => h (by simp [h0])))
    exact this

/-- Reading one member, positioned behind its opening quote. -/
theorem members_step {k raw : Bytes} (hk : Escaped raw k) (hc : CStr k) (f d : Nat) (v : Bytes) :
    parseMembers (f + 1) d (0x22 :: (raw ++ 0x22 :: 0x3a :: v)) =
      match parseValue f d (skipWs v) with
      | none => none
      | some (j, s3) => match skipWs s3 with
          | [] => none
          | c :: r =>
              if c = 0x2c then (parseMembers f d (skipWs r)).map fun p => ((k, j) :: p.1, p.2)
              else if c = 0x7d then some ([(k, j)], r)
              else none := by
  rw [parseMembers]
  simp only [ne_eq, not_true_eq_false, if_false, hk.parseStr hc, skipWs_cons (show ¬ (0x3a : UInt8) ≤ 0x20 by decide)]
  rcases parseValue f d (skipWs v) with _ | ⟨j, s3⟩
  · rfl
  · simp only
    cases skipWs s3 <;> rfl

/-- Reading a string value. -/
theorem value_str {k raw : Bytes} (hk : Escaped raw k) (hc : CStr k) (f d : Nat) (rest : Bytes) :
    parseValue (f + 1) d (0x22 :: (raw ++ 0x22 :: rest)) = some (.str k, rest) := by
  rw [parseValue.eq_def]
  simp only
  rw [isPrefix_ne _ (by decide), isPrefix_ne _ (by decide), isPrefix_ne _ (by decide)]
  simp only [Bool.false_eq_true, if_false, if_true, hk.parseStr hc, Option.map_some]

/-- Reading an object. -/
theorem value_obj (f d : Nat) (hd : d < nestingLimit) {c : UInt8} {r : Bytes} (hc : c ≠ 0x7d) (hc' : ¬ c ≤ 0x20) :
    parseValue (f + 1) d (0x7b :: c :: r) = (parseMembers f (d + 1) (c :: r)).map fun p => (.obj p.1, p.2) := by
  rw [parseValue.eq_def]
  simp only
  rw [isPrefix_ne _ (by decide), isPrefix_ne _ (by decide), isPrefix_ne _ (by decide), skipWs_cons hc']
  have h1 : ¬ ((0x7b : UInt8) = 0x22) := by decide
  have h2 : ¬ ((0x7b : UInt8) = 0x2d ∨ Num.isDigit 0x7b = true) := by decide
  have h3 : ¬ ((0x7b : UInt8) = 0x5b) := by decide
  have h4 : ¬ d ≥ nestingLimit := by omega
  simp only [Bool.false_eq_true, if_false, if_true, h1, h2, h3, h4, hc]

end Nostr.Json
