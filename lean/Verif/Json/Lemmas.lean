import Verif.Json.Model
import Verif.Hex.Lemmas

/-! # cJSON model: parsing what was printed gives the tree back -/

namespace Nostr.Json
open Nostr

/-- Number texts made of an optional minus sign and 1 to 20 digits. -/
def IntNum (t : Bytes) : Prop :=
  let ds := if t.head? = some 0x2d then t.tail else t
  ds ≠ [] ∧ ds.length ≤ 20 ∧ ∀ c ∈ ds, Num.isDigit c = true

instance (t : Bytes) : Decidable (IntNum t) := by unfold IntNum; infer_instance

/-- Texts that are read as one number: at most 63 number characters, a minus sign or a digit first, consumed
entirely by `strtod`. -/
structure GoodNum (t : Bytes) : Prop where
  whole : strtodPrefix t = t
  short : t.length ≤ 63
  chars : ∀ c ∈ t, isNumChar c = true
  head : ∃ c, t.head? = some c ∧ (c = 0x2d ∨ Num.isDigit c = true)

mutual
/-- Trees whose strings are C strings and whose numbers are well formed. -/
def Good : Json → Prop
  | .num t => GoodNum t
  | .str s => CStr s
  | .arr l => GoodL l
  | .obj m => GoodM m
  | _ => True
/-- `Good` for all elements. -/
def GoodL : List Json → Prop
  | [] => True
  | j :: l => Good j ∧ GoodL l
/-- `Good` for all members. -/
def GoodM : List (Bytes × Json) → Prop
  | [] => True
  | (k, j) :: l => CStr k ∧ Good j ∧ GoodM l
end

mutual
/-- Nesting depth of a tree. -/
def height : Json → Nat
  | .arr l => 1 + heightL l
  | .obj m => 1 + heightM m
  | _ => 0
/-- Largest nesting depth among elements. -/
def heightL : List Json → Nat
  | [] => 0
  | j :: l => max (height j) (heightL l)
/-- Largest nesting depth among members. -/
def heightM : List (Bytes × Json) → Nat
  | [] => 0
  | (_, j) :: l => max (height j) (heightM l)
end

mutual
/-- Recursion depth the parser needs. -/
def need : Json → Nat
  | .arr l => 1 + needL l
  | .obj m => 1 + needM m
  | _ => 1
/-- For an element list. -/
def needL : List Json → Nat
  | [] => 0
  | j :: l => 1 + need j + needL l
/-- For a member list. -/
def needM : List (Bytes × Json) → Nat
  | [] => 0
  | (_, j) :: l => 1 + need j + needM l
end

/-- What follows a value does not continue a number. -/
def Stop (rest : Bytes) : Prop := ∀ c, rest.head? = some c → isNumChar c = false

theorem skipWs_cons {c : UInt8} (h : ¬ c ≤ 0x20) (s : Bytes) : skipWs (c :: s) = c :: s := by
  simp [skipWs, h]

theorem skipWs_ws {w : Bytes} (h : ∀ c ∈ w, c ≤ 0x20) (s : Bytes) : skipWs (w ++ s) = skipWs s := by
  induction w with
  | nil => rfl
  | cons c w ih =>
    have := h c (by simp)
    have h2 := ih (fun d hd => h d (by simp [hd]))
    simp only [skipWs, List.cons_append, List.dropWhile_cons, this, decide_true, if_true] at h2 ⊢
    exact h2

theorem tabs_ws (n : Nat) : ∀ c ∈ tabs n, c ≤ 0x20 := by
  intro c hc
  rw [tabs, List.mem_replicate] at hc
  rw [hc.2]; decide

/-- The seven two-character escapes: character and the letter behind the backslash. -/
def shortEsc : List (UInt8 × UInt8) :=
  [(0x08, 0x62), (0x0c, 0x66), (0x0a, 0x6e), (0x0d, 0x72), (0x09, 0x74), (0x22, 0x22), (0x5c, 0x5c)]

/-- The escaped form of one character, and how it is read back. -/
theorem esc_table : ∀ n < 256, n ≠ 0 →
    (escChar (UInt8.ofNat n) = [UInt8.ofNat n] ∧ UInt8.ofNat n ≠ 0x22 ∧ UInt8.ofNat n ≠ 0x5c) ∨
    (shortEsc.any (fun p => escChar (UInt8.ofNat n) = [0x5c, p.2] ∧ p.1 = UInt8.ofNat n)) ∨
    (escChar (UInt8.ofNat n) = [0x5c, 0x75, 0x30, 0x30, Hex.digit (n / 16), Hex.digit (n % 16)] ∧
      hex4 0x30 0x30 (Hex.digit (n / 16)) (Hex.digit (n % 16)) = n ∧ n < 0x20 ∧
      Hex.digit (n / 16) ≠ 0x22 ∧ Hex.digit (n / 16) ≠ 0x5c ∧
      Hex.digit (n % 16) ≠ 0x22 ∧ Hex.digit (n % 16) ≠ 0x5c) := by decide +kernel

theorem esc_cases {c : UInt8} (h0 : c ≠ 0) :
    (escChar c = [c] ∧ c ≠ 0x22 ∧ c ≠ 0x5c) ∨
    (∃ p ∈ shortEsc, escChar c = [0x5c, p.2] ∧ p.1 = c) ∨
    (escChar c = [0x5c, 0x75, 0x30, 0x30, Hex.digit (c.toNat / 16), Hex.digit (c.toNat % 16)] ∧
      hex4 0x30 0x30 (Hex.digit (c.toNat / 16)) (Hex.digit (c.toNat % 16)) = c.toNat ∧ c.toNat < 0x20 ∧
      Hex.digit (c.toNat / 16) ≠ 0x22 ∧ Hex.digit (c.toNat / 16) ≠ 0x5c ∧
      Hex.digit (c.toNat % 16) ≠ 0x22 ∧ Hex.digit (c.toNat % 16) ≠ 0x5c) := by
  have hn : c.toNat ≠ 0 := fun h => h0 (UInt8.toNat_inj.1 h)
  have ht := esc_table c.toNat c.toNat_lt hn
  rw [UInt8.ofNat_toNat] at ht
  simpa only [List.any_eq_true, decide_eq_true_eq] using ht

theorem strEnd_plain {c : UInt8} (h1 : c ≠ 0x22) (h2 : c ≠ 0x5c) (s : Bytes) :
    strEnd (c :: s) = (strEnd s).map fun r => (c :: r.1, r.2) := by
  rw [strEnd.eq_def]
  split <;> simp_all

theorem strEnd_esc (c : UInt8) (s : Bytes) :
    strEnd (0x5c :: c :: s) = (strEnd s).map fun r => (0x5c :: c :: r.1, r.2) := by
  rw [strEnd.eq_def]
  rfl

theorem unescape_plain {c : UInt8} (h2 : c ≠ 0x5c) (f : Nat) (s : Bytes) :
    unescape (f + 1) (c :: s) = (unescape f s).map (c :: ·) := by
  rw [unescape.eq_def]
  split <;> simp_all

/-- The closing quote is found behind an escaped body. -/
theorem strEnd_escape {s : Bytes} (hs : CStr s) (rest : Bytes) :
    strEnd (escape s ++ 0x22 :: rest) = some (escape s, rest) := by
  induction s with
  | nil => rfl
  | cons c s ih =>
    have hc : c ≠ 0 := fun h => hs (by simp [h])
    have ih' := ih (fun h => hs (by simp [h]))
    have ht := esc_cases hc
    have he : escape (c :: s) = escChar c ++ escape s := rfl
    rw [he]
    rcases ht with ⟨h1, h2, h3⟩ | ⟨e, -, h1, -⟩ | ⟨h1, -, -, h4, h5, h6, h7⟩
    · rw [h1, List.append_assoc, List.singleton_append, strEnd_plain h2 h3, ih']; rfl
    · rw [h1]; simp only [List.cons_append, List.nil_append]
      rw [strEnd_esc, ih']; rfl
    · rw [h1]; simp only [List.cons_append, List.nil_append]
      rw [strEnd_esc, strEnd_plain (by decide) (by decide), strEnd_plain (by decide) (by decide),
        strEnd_plain h4 h5, strEnd_plain h6 h7, ih']; rfl

/-- The escaped body decodes to the string. -/
theorem unescape_escape {s : Bytes} (hs : CStr s) : ∀ f, (escape s).length ≤ f →
    unescape f (escape s) = some s := by
  induction s with
  | nil => intro f _; rw [show escape [] = [] from rfl, unescape.eq_def]
  | cons c s ih =>
    intro f hf
    have hc : c ≠ 0 := fun h => hs (by simp [h])
    have ih' := ih (fun h => hs (by simp [h]))
    have ht := esc_cases hc
    have he : escape (c :: s) = escChar c ++ escape s := rfl
    rw [he] at hf ⊢
    rw [List.length_append] at hf
    rcases ht with ⟨h1, h2, h3⟩ | ⟨e, he, h1, h2⟩ | ⟨h1, h2, h3, -⟩
    · rw [h1] at hf ⊢
      simp only [List.length_singleton] at hf
      obtain ⟨f, rfl⟩ : ∃ g, f = g + 1 := ⟨f - 1, by omega⟩
      rw [List.singleton_append, unescape_plain h3, ih' f (by omega)]; rfl
    · rw [h1] at hf ⊢
      simp only [List.length_cons, List.length_nil] at hf
      obtain ⟨f, rfl⟩ : ∃ g, f = g + 1 := ⟨f - 1, by omega⟩
      simp only [List.cons_append, List.nil_append]
      simp only [shortEsc, List.mem_cons, List.not_mem_nil, or_false] at he
      have hu := ih' f (by omega)
      rw [← h2]
      rcases he with rfl | rfl | rfl | rfl | rfl | rfl | rfl <;>
        (rw [unescape.eq_def]; simp [hu])
    · rw [h1] at hf ⊢
      simp only [List.length_cons, List.length_nil] at hf
      obtain ⟨f, rfl⟩ : ∃ g, f = g + 1 := ⟨f - 1, by omega⟩
      simp only [List.cons_append, List.nil_append]
      rw [unescape.eq_def]
      simp only [h2]
      rw [if_neg (by omega), if_neg (by omega), ih' f (by omega)]
      simp only [utf8, Option.map_some]
      rw [if_pos (by omega), UInt8.ofNat_toNat]
      rfl

theorem takeWhile_all {p : UInt8 → Bool} {s : Bytes} (h : ∀ c ∈ s, p c = true) : s.takeWhile p = s := by
  induction s with
  | nil => rfl
  | cons c s ih =>
    rw [List.takeWhile_cons, h c (by simp), if_pos rfl, ih (fun d hd => h d (by simp [hd]))]

theorem cstr_self {s : Bytes} (h : CStr s) : cstr s = s := by
  unfold cstr
  apply takeWhile_all
  intro c hc
  simp only [bne_iff_ne]
  exact fun h0 => h (h0 ▸ hc)

/-- Reading back a printed string. -/
theorem parseStr_quoted {s : Bytes} (hs : CStr s) (rest : Bytes) :
    parseStr (escape s ++ 0x22 :: rest) = some (s, rest) := by
  unfold parseStr
  rw [strEnd_escape hs]
  simp only [unescape_escape hs _ (Nat.le_refl _), Option.map_some, cstr_self hs]

theorem isDigit_numChar {c : UInt8} (h : Num.isDigit c = true) : isNumChar c = true := by
  simp [isNumChar, h]

theorem IntNum.good {t : Bytes} (ht : IntNum t) : GoodNum t := by
  obtain ⟨hne, hlen, hd⟩ := ht
  have hall : ∀ c ∈ t, isNumChar c = true := by
    intro c hc
    split at hd
    · rename_i h
      cases t with
      | nil => simp at h
      | cons a t =>
        simp at h
        rcases List.mem_cons.1 hc with h1 | h1
        · rw [h1, h]; decide
        · exact isDigit_numChar (hd c h1)
    · exact isDigit_numChar (hd c hc)
  have hl : t.length ≤ 21 := by
    split at hlen
    · rw [List.length_tail] at hlen; omega
    · omega
  have key : ∀ ds : Bytes, ds ≠ [] → (∀ c ∈ ds, Num.isDigit c = true) → digits ds = ds := by
    intro ds _ h; exact takeWhile_all h
  refine ⟨?_, by omega, hall, ?_⟩
  · unfold strtodPrefix
    split at hne
    · rename_i h
      cases t with
      | nil => simp at h
      | cons a t =>
        simp only [List.head?_cons, Option.some.injEq] at h
        subst h
        simp only [List.head?_cons, List.tail_cons, if_true] at hne hd
        have hk := key t hne hd
        simp only [List.head?_cons, true_or, if_true, List.take_succ_cons, List.take_zero,
          List.length_singleton, List.drop_succ_cons, List.drop_zero, hk, List.drop_length,
          List.head?_nil, reduceCtorEq, if_false, hne, false_and, List.append_nil, List.length_nil,
          or_self, List.singleton_append]
    · rename_i h
      have hd' : ∀ c ∈ t, Num.isDigit c = true := by simpa only [h, if_false] using hd
      have hk := key t hne hd'
      have hp : t.head? ≠ some 0x2b := by
        intro hp
        have := hd' 0x2b (List.mem_of_head? hp)
        revert this; decide
      simp only [h, hp, or_self, if_false, List.length_nil, List.drop_zero, hk, List.drop_length,
        List.head?_nil, reduceCtorEq, hne, false_and, List.append_nil, List.nil_append]
  · cases t with
    | nil => simp at hne
    | cons a t =>
      refine ⟨a, rfl, ?_⟩
      split at hd
      · rename_i h; simp only [List.head?_cons, Option.some.injEq] at h; exact .inl h
      · exact .inr (hd a (by simp))

/-- Reading back a printed number. -/
theorem number_back {t rest : Bytes} (ht : GoodNum t) (hr : Stop rest) :
    strtodPrefix (((t ++ rest).take 63).takeWhile isNumChar) = t := by
  have h1 : ((t ++ rest).take 63).takeWhile isNumChar = t := by
    have h2 : (t ++ rest).take 63 = t ++ rest.take (63 - t.length) := by
      rw [List.take_append, List.take_of_length_le ht.short]
    rw [h2]
    refine (Num.takeWhile_append_stop ht.chars ?_).1
    intro c hc
    apply hr c
    cases rest with
    | nil => simp at hc
    | cons a r =>
      cases hk : 63 - t.length with
      | zero => rw [hk] at hc; simp at hc
      | succ k => rw [hk, List.take_succ_cons] at hc; exact hc
  rw [h1, ht.whole]

/-- The first character of printed text is no white space. -/
theorem print_head (fmt : Bool) (d : Nat) (j : Json) (hg : Good j) :
    ∃ c r, print fmt d j = c :: r ∧ ¬ c ≤ 0x20 := by
  cases j with
  | null => exact ⟨_, _, rfl, by decide⟩
  | tru => exact ⟨_, _, rfl, by decide⟩
  | fls => exact ⟨_, _, rfl, by decide⟩
  | num t =>
    simp only [Good] at hg
    obtain ⟨c, h1, h3⟩ := hg.head
    cases t with
    | nil => simp at h1
    | cons a t =>
      simp only [List.head?_cons, Option.some.injEq] at h1
      subst h1
      refine ⟨a, t, rfl, ?_⟩
      rcases h3 with rfl | h3
      · decide
      · have := (Num.isDigit_iff a).1 h3
        rw [UInt8.le_iff_toNat_le]
        have : (0x20 : UInt8).toNat = 32 := rfl
        omega
  | str s => exact ⟨0x22, _, rfl, by decide⟩
  | arr l => exact ⟨0x5b, _, rfl, by decide⟩
  | obj m => exact ⟨0x7b, _, rfl, by decide⟩

theorem skipWs_print (fmt : Bool) (d : Nat) (j : Json) (hg : Good j) (rest : Bytes) :
    skipWs (print fmt d j ++ rest) = print fmt d j ++ rest := by
  obtain ⟨c, r, h1, h2⟩ := print_head fmt d j hg
  rw [h1, List.cons_append, skipWs_cons h2]

theorem stop_cons {c : UInt8} (h : isNumChar c = false) (s : Bytes) : Stop (c :: s) := by
  intro d hd; simp at hd; rw [← hd]; exact h

theorem isPrefix_ne {p : Bytes} {c d : UInt8} (s : Bytes) (h : c ≠ d) : (c :: p).isPrefixOf (d :: s) = false := by
  simp [List.isPrefixOf, h]

/-- Statement for element lists. -/
def ElemsBack (fmt : Bool) (l : List Json) : Prop :=
  ∀ f d d' rest, l ≠ [] → needL l ≤ f → GoodL l → d + heightL l ≤ nestingLimit →
    parseElems f d (printElems fmt d' l ++ 0x5d :: rest) = some (l, rest)

/-- Statement for member lists; `w` is white space before the closing brace. -/
def MembersBack (fmt : Bool) (m : List (Bytes × Json)) : Prop :=
  ∀ f d d' w rest, m ≠ [] → needM m ≤ f → GoodM m → d + heightM m ≤ nestingLimit →
    (∀ c ∈ w, c ≤ (0x20 : UInt8)) →
    parseMembers f d (skipWs (printMembers fmt d' m ++ w ++ 0x7d :: rest)) = some (m, rest)

/-- Statement for values. -/
def ValueBack (fmt : Bool) (j : Json) : Prop :=
  ∀ f d d' rest, need j ≤ f → Good j → d + height j ≤ nestingLimit → Stop rest →
    parseValue f d (print fmt d' j ++ rest) = some (j, rest)

theorem good_head {j : Json} {c : UInt8} {r rest : Bytes} (hg : Good j) {fmt : Bool} {d : Nat}
    (h : print fmt d j ++ rest = c :: r) : c ≠ 0x5d ∧ c ≠ 0x7d ∧ ¬ c ≤ 0x20 := by
  cases j with
  | null => simp [print] at h; rw [← h.1]; decide
  | tru => simp [print] at h; rw [← h.1]; decide
  | fls => simp [print] at h; rw [← h.1]; decide
  | num t =>
    simp only [Good] at hg
    obtain ⟨b, h1, h3⟩ := hg.head
    cases t with
    | nil => simp at h1
    | cons a t =>
      simp only [List.head?_cons, Option.some.injEq] at h1
      subst h1
      simp only [print, List.cons_append, List.cons.injEq] at h
      rw [← h.1]
      rcases h3 with rfl | h3
      · decide
      · have h4 := (Num.isDigit_iff a).1 h3
        refine ⟨?_, ?_, ?_⟩
        · rintro rfl; revert h4; decide
        · rintro rfl; revert h4; decide
        · rw [UInt8.le_iff_toNat_le]
          have : (0x20 : UInt8).toNat = 32 := rfl
          omega
  | str s => simp [print, quoted] at h; rw [← h.1]; decide
  | arr l => simp [print] at h; rw [← h.1]; decide
  | obj m => simp [print] at h; rw [← h.1]; decide

theorem value_back (fmt : Bool) (j : Json) : ValueBack fmt j := by
  refine Json.rec (motive_1 := ValueBack fmt) (motive_2 := ElemsBack fmt) (motive_3 := MembersBack fmt)
    (motive_4 := fun p => ValueBack fmt p.2) ?_ ?_ ?_ ?_ ?_ ?_ ?_ ?_ ?_ ?_ ?_ ?_ j
  · intro f d d' rest hf _ _ _
    obtain ⟨f, rfl⟩ : ∃ g, f = g + 1 := ⟨f - 1, by simp [need] at hf; omega⟩
    rw [parseValue.eq_def]; simp [print, List.isPrefixOf]
  · intro f d d' rest hf _ _ _
    obtain ⟨f, rfl⟩ : ∃ g, f = g + 1 := ⟨f - 1, by simp [need] at hf; omega⟩
    rw [parseValue.eq_def]; simp [print, List.isPrefixOf]
  · intro f d d' rest hf _ _ _
    obtain ⟨f, rfl⟩ : ∃ g, f = g + 1 := ⟨f - 1, by simp [need] at hf; omega⟩
    rw [parseValue.eq_def]; simp [print, List.isPrefixOf]
  · intro t f d d' rest hf hg _ hr
    obtain ⟨f, rfl⟩ : ∃ g, f = g + 1 := ⟨f - 1, by simp [need] at hf; omega⟩
    simp only [Good] at hg
    have hb := number_back hg hr
    obtain ⟨b, h1, ha⟩ := hg.head
    cases t with
    | nil => simp at h1
    | cons a t =>
      simp only [List.head?_cons, Option.some.injEq] at h1
      subst h1
      have hn : a ≠ 0x6e ∧ a ≠ 0x66 ∧ a ≠ 0x74 ∧ a ≠ 0x22 := by
        rcases ha with rfl | ha
        · decide
        · rw [Num.isDigit_iff] at ha
          refine ⟨?_, ?_, ?_, ?_⟩ <;> rintro rfl <;> revert ha <;> decide
      rw [parseValue.eq_def]
      simp only [print, List.cons_append] at hb ⊢
      rw [isPrefix_ne _ (Ne.symm hn.1), isPrefix_ne _ (Ne.symm hn.2.1), isPrefix_ne _ (Ne.symm hn.2.2.1)]
      simp only [Bool.false_eq_true, if_false, hn.2.2.2, ha, if_true, hb]
      simp
  · intro s f d d' rest hf hg _ _
    obtain ⟨f, rfl⟩ : ∃ g, f = g + 1 := ⟨f - 1, by simp [need] at hf; omega⟩
    simp only [Good] at hg
    rw [parseValue.eq_def]
    have : print fmt d' (.str s) ++ rest = 0x22 :: (escape s ++ 0x22 :: rest) := by
      simp [print, quoted]
    rw [this]
    simp only
    rw [isPrefix_ne _ (by decide), isPrefix_ne _ (by decide), isPrefix_ne _ (by decide)]
    simp only [Bool.false_eq_true, if_false, if_true, parseStr_quoted hg, Option.map_some]
  · intro l ih f d d' rest hf hg hh _
    obtain ⟨f, rfl⟩ : ∃ g, f = g + 1 := ⟨f - 1, by simp [need] at hf; omega⟩
    simp only [Good] at hg
    simp only [height] at hh
    simp only [need] at hf
    rw [parseValue.eq_def]
    have : print fmt d' (.arr l) ++ rest = 0x5b :: (printElems fmt d' l ++ 0x5d :: rest) := by
      simp [print]
    rw [this]
    simp only
    rw [isPrefix_ne _ (by decide), isPrefix_ne _ (by decide), isPrefix_ne _ (by decide)]
    have hd : ¬ d ≥ nestingLimit := by omega
    have e1 : ((0x5b : UInt8) = 0x22) = False := by decide
    have e2 : ((0x5b : UInt8) = 0x2d ∨ Num.isDigit 0x5b = true) = False := by decide
    simp only [Bool.false_eq_true, if_false, e1, e2, if_true, hd]
    cases l with
    | nil => simp [printElems, skipWs_cons]
    | cons j l =>
      have hp : ∃ r, printElems fmt d' (j :: l) ++ 0x5d :: rest = print fmt (d' + 1) j ++ r :=
        ⟨_, by simp only [printElems, List.append_assoc]; rfl⟩
      obtain ⟨r, hp⟩ := hp
      simp only [GoodL] at hg
      obtain ⟨c, r', hc, -⟩ := print_head fmt (d' + 1) j hg.1
      have hc' : printElems fmt d' (j :: l) ++ 0x5d :: rest = c :: (r' ++ r) := by
        rw [hp, hc]; rfl
      have hh2 := good_head (rest := r) hg.1 (hp.symm.trans hc')
      have hih := ih f (d + 1) d' rest (by simp) (by omega) (by simpa only [GoodL] using hg) (by omega)
      rw [hc'] at hih ⊢
      rw [skipWs_cons hh2.2.2]
      simp only [hh2.1, if_false, hih, Option.map_some]
  · intro m ih f d d' rest hf hg hh _
    obtain ⟨f, rfl⟩ : ∃ g, f = g + 1 := ⟨f - 1, by simp [need] at hf; omega⟩
    simp only [Good] at hg
    simp only [height] at hh
    simp only [need] at hf
    rw [parseValue.eq_def]
    have : print fmt d' (.obj m) ++ rest = 0x7b :: ((if fmt then [0x0a] else []) ++
        (printMembers fmt (d' + 1) m ++ (if fmt then tabs d' else []) ++ 0x7d :: rest)) := by
      simp [print]
    rw [this]
    simp only
    rw [isPrefix_ne _ (by decide), isPrefix_ne _ (by decide), isPrefix_ne _ (by decide)]
    have hd : ¬ d ≥ nestingLimit := by omega
    have e1 : ((0x7b : UInt8) = 0x22) = False := by decide
    have e2 : ((0x7b : UInt8) = 0x2d ∨ Num.isDigit 0x7b = true) = False := by decide
    have e3 : ((0x7b : UInt8) = 0x5b) = False := by decide
    simp only [Bool.false_eq_true, if_false, e1, e2, e3, if_true, hd]
    have hw : ∀ c ∈ (if fmt then [(0x0a : UInt8)] else []), c ≤ 0x20 := by
      cases fmt <;> simp
    have hw2 : ∀ c ∈ (if fmt then tabs d' else []), c ≤ 0x20 := by
      cases fmt
      · simp
      · simpa using tabs_ws d'
    rw [skipWs_ws hw]
    cases m with
    | nil =>
      simp only [printMembers, List.nil_append]
      rw [skipWs_ws hw2, skipWs_cons (by decide)]
      simp
    | cons p m =>
      obtain ⟨k, j⟩ := p
      have hih := ih f (d + 1) (d' + 1) (if fmt then tabs d' else []) rest (by simp) (by omega) hg
        (by omega) hw2
      have hq : ∃ r, skipWs (printMembers fmt (d' + 1) ((k, j) :: m) ++ (if fmt then tabs d' else []) ++
          0x7d :: rest) = 0x22 :: r := by
        simp only [printMembers, List.append_assoc]
        have hw3 : ∀ c ∈ (if fmt then tabs (d' + 1) else []), c ≤ 0x20 := by
          cases fmt
          · simp
          · simpa using tabs_ws (d' + 1)
        rw [skipWs_ws hw3, quoted, List.cons_append, List.cons_append, skipWs_cons (by decide)]
        exact ⟨_, rfl⟩
      obtain ⟨r, hq⟩ := hq
      rw [hq] at hih ⊢
      have e4 : ((0x22 : UInt8) = 0x7d) = False := by decide
      simp only [e4, if_false, hih, Option.map_some]
  · intro f d d' rest h; simp at h
  · intro j l ihj ihl f d d' rest _ hf hg hh
    simp only [needL] at hf
    simp only [GoodL] at hg
    simp only [heightL] at hh
    obtain ⟨f, rfl⟩ : ∃ g, f = g + 1 := ⟨f - 1, by omega⟩
    rw [parseElems.eq_def]
    simp only [printElems, List.append_assoc]
    cases l with
    | nil =>
      simp only [List.nil_append]
      rw [ihj f d (d' + 1) (0x5d :: rest) (by omega) hg.1 (by omega) (stop_cons (by decide) _)]
      simp only
      rw [skipWs_cons (by decide)]
      simp
    | cons j2 l =>
      simp only [List.cons_append, List.append_assoc]
      rw [ihj f d (d' + 1) _ (by omega) hg.1 (by omega) (stop_cons (by decide) _)]
      simp only
      rw [skipWs_cons (by decide)]
      have hw : ∀ c ∈ (if fmt then [(0x20 : UInt8)] else []), c ≤ 0x20 := by
        cases fmt <;> simp
      simp only [if_true]
      rw [skipWs_ws hw]
      have hs : skipWs (printElems fmt d' (j2 :: l) ++ 0x5d :: rest) =
          printElems fmt d' (j2 :: l) ++ 0x5d :: rest := by
        have hg2 := hg.2
        simp only [GoodL] at hg2
        simp only [printElems, List.append_assoc]
        exact skipWs_print fmt _ j2 hg2.1 _
      rw [hs, ihl f d d' rest (by simp) (by omega) hg.2 (by omega)]
      rfl
  · intro f d d' w rest h; simp at h
  · intro p m ihp ihm f d d' w rest _ hf hg hh hw
    obtain ⟨k, j⟩ := p
    simp only at ihp
    simp only [needM] at hf
    simp only [GoodM] at hg
    simp only [heightM] at hh
    obtain ⟨f, rfl⟩ : ∃ g, f = g + 1 := ⟨f - 1, by omega⟩
    have hw3 : ∀ c ∈ (if fmt then tabs d' else []), c ≤ 0x20 := by
      cases fmt
      · simp
      · simpa using tabs_ws d'
    have hw4 : ∀ c ∈ (if fmt then [(0x09 : UInt8)] else []), c ≤ 0x20 := by
      cases fmt <;> simp
    have hw5 : ∀ c ∈ (if fmt then [(0x0a : UInt8)] else []), c ≤ 0x20 := by
      cases fmt <;> simp
    simp only [printMembers, List.append_assoc]
    rw [skipWs_ws hw3, quoted]
    simp only [List.cons_append, List.append_assoc, List.nil_append]
    rw [skipWs_cons (by decide), parseMembers.eq_def]
    have e0 : ((0x22 : UInt8) ≠ 0x22) = False := by decide
    simp only [e0, if_false, parseStr_quoted hg.1]
    rw [skipWs_cons (by decide)]
    have e1 : ((0x3a : UInt8) ≠ 0x3a) = False := by decide
    simp only [e1, if_false]
    rw [skipWs_ws hw4, skipWs_print fmt d' j hg.2.1]
    cases m with
    | nil =>
      simp only [List.nil_append, printMembers]
      have hs : Stop ((if fmt then [(0x0a : UInt8)] else []) ++ (w ++ 0x7d :: rest)) := by
        intro c hc
        have : c ≤ 0x20 ∨ c = 0x7d := by
          cases fmt
          · simp only [Bool.false_eq_true, if_false, List.nil_append] at hc
            cases w with
            | nil => simp at hc; exact .inr hc.symm
            | cons a w => simp at hc; rw [← hc]; exact .inl (hw a (by simp))
          · simp at hc; rw [← hc]; left; decide
        rcases this with h | h
        · have ht : ∀ n < 256, UInt8.ofNat n ≤ 0x20 → isNumChar (UInt8.ofNat n) = false := by
            decide +kernel
          have := ht c.toNat c.toNat_lt
          rw [UInt8.ofNat_toNat] at this
          exact this h
        · rw [h]; decide
      rw [ihp f d d' _ (by omega) hg.2.1 (by omega) hs]
      simp only
      rw [skipWs_ws hw5, skipWs_ws hw, skipWs_cons (by decide)]
      simp
    | cons p2 m =>
      simp only [List.cons_append, List.nil_append]
      rw [ihp f d d' _ (by omega) hg.2.1 (by omega) (stop_cons (by decide) _)]
      simp only
      rw [skipWs_cons (by decide)]
      simp only [if_true]
      rw [skipWs_ws hw5]
      have := ihm f d d' w rest (by simp) (by omega) hg.2.2 (by omega) hw
      rw [List.append_assoc] at this
      rw [this]
      rfl
  · intro s j h; exact h

/-- Every printed value has enough characters for the parser's recursion bound. -/
theorem need_le (fmt : Bool) (j : Json) : ∀ d, Good j → need j ≤ (print fmt d j).length := by
  refine Json.rec (motive_1 := fun j => ∀ d, Good j → need j ≤ (print fmt d j).length)
    (motive_2 := fun l => ∀ d, GoodL l → l ≠ [] → needL l ≤ (printElems fmt d l).length + 1)
    (motive_3 := fun m => ∀ d, GoodM m → needM m ≤ (printMembers fmt d m).length)
    (motive_4 := fun p => ∀ d, Good p.2 → need p.2 ≤ (print fmt d p.2).length) ?_ ?_ ?_ ?_ ?_ ?_ ?_ ?_ ?_ ?_ ?_ ?_ j
  · intro d _; simp [need, print]
  · intro d _; simp [need, print]
  · intro d _; simp [need, print]
  · intro t d hg
    simp only [Good] at hg
    simp only [need, print]
    cases t with
    | nil => obtain ⟨_, h, _⟩ := hg.head; simp at h
    | cons a t => simp
  · intro s d _; simp [need, print, quoted]
  · intro l ih d hg
    simp only [Good] at hg
    simp only [need, print, List.length_cons, List.length_append, List.length_nil]
    cases l with
    | nil => simp [needL]
    | cons j l => have := ih d hg (by simp); omega
  · intro m ih d hg
    simp only [Good] at hg
    simp only [need, print, List.length_cons, List.length_append, List.length_nil]
    have := ih (d + 1) hg; omega
  · intro d _ h; simp at h
  · intro j l ihj ihl d hg _
    simp only [GoodL] at hg
    have h1 := ihj (d + 1) hg.1
    simp only [needL, printElems, List.length_append]
    cases l with
    | nil => simp [needL]; omega
    | cons j2 l =>
      have h2 := ihl d hg.2 (by simp)
      simp only [List.length_cons, List.cons_append, List.length_append]; omega
  · intro d _; simp [needM]
  · intro p m ihp ihm d hg
    obtain ⟨k, j⟩ := p
    simp only [GoodM] at hg
    have h1 := ihp d hg.2.1
    have h2 := ihm d hg.2.2
    simp only [needM, printMembers, List.length_append, quoted, List.length_cons]
    simp only at h1
    omega
  · intro s j h; exact h

/-- Parsing printed text gives the tree back, also when further text follows. -/
theorem parse_print (fmt : Bool) (d : Nat) (j : Json) (hg : Good j) (hh : height j ≤ nestingLimit)
    (rest : Bytes) (hr : Stop rest) : parse (print fmt d j ++ rest) = some j := by
  unfold parse
  rw [skipWs_print fmt d j hg]
  have h1 := need_le fmt j d hg
  rw [value_back fmt j _ 0 d rest (by rw [List.length_append]; omega) hg (by omega) hr]
  rfl

/-- Different trees print differently. -/
theorem print_inj {fmt : Bool} {d : Nat} {j k : Json} (hj : Good j) (hk : Good k)
    (h1 : height j ≤ nestingLimit) (h2 : height k ≤ nestingLimit)
    (h : print fmt d j = print fmt d k) : j = k := by
  have a := parse_print fmt d j hj h1 [] (by intro c hc; simp at hc)
  have b := parse_print fmt d k hk h2 [] (by intro c hc; simp at hc)
  rw [h, b] at a
  exact (Option.some.inj a).symm

end Nostr.Json
