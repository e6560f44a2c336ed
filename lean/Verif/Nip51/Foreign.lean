import Verif.Nip51.Props
import Verif.Hex.Lemmas

/-! # Property theorems: C118 - private items written by other programs -/

namespace Nostr.Nip51.Spec
open Nostr Nostr.Nip51

/-- Four hex digits, upper or lower case, with the value `n`. -/
def Quad (q : Bytes) (n : Nat) : Prop :=
  n < 65536 ∧ Hex.Spec.lowerHex q = Hex.Spec.hexText [UInt8.ofNat (n / 256), UInt8.ofNat (n % 256)]

/-- The two-character escapes of RFC 8259 other than `\b` and `\f`: letter and meaning. -/
def shortEscapes : List (UInt8 × UInt8) := [(0x22, 0x22), (0x5c, 0x5c), (0x2f, 0x2f), (0x6e, 0x0a), (0x72, 0x0d), (0x74, 0x09)]

/-- RFC 8259: `Body raw m` says that `raw` between quotes is a JSON string with the UTF-8 bytes `m`. The escapes `\b`
and `\f` and the character NUL are left out. -/
inductive Body : Bytes → Bytes → Prop
  | nil : Body [] []
  | char {c : UInt8} {r m : Bytes} : 0x20 ≤ c → c ≠ 0x22 → c ≠ 0x5c → Body r m → Body (c :: r) (c :: m)
  | short {e c : UInt8} {r m : Bytes} : (e, c) ∈ shortEscapes → Body r m → Body (0x5c :: e :: r) (c :: m)
  | unicode {q r m : Bytes} {n : Nat} : Quad q n → n ≠ 0 → n < 0xd800 ∨ 0xdfff < n → Body r m →
      Body (0x5c :: 0x75 :: (q ++ r)) (String.utf8EncodeChar (Char.ofNat n) ++ m)
  | pair {q p r m : Bytes} {n hi lo : Nat} : Quad q (0xd800 + hi) → Quad p (0xdc00 + lo) → hi < 0x400 → lo < 0x400 →
      n = 0x10000 + hi * 0x400 + lo → Body r m →
      Body (0x5c :: 0x75 :: (q ++ (0x5c :: 0x75 :: (p ++ r)))) (String.utf8EncodeChar (Char.ofNat n) ++ m)

/-- JSON white space. -/
def White (w : Bytes) : Prop := ∀ c ∈ w, c = 0x20 ∨ c = 0x0a ∨ c = 0x0d ∨ c = 0x09

instance (w : Bytes) : Decidable (White w) := inferInstanceAs (Decidable (∀ c ∈ w, _))

/-- A quoted JSON string with the meaning `m`. -/
def Quoted (t m : Bytes) : Prop := ∃ raw, t = 0x22 :: (raw ++ [0x22]) ∧ Body raw m

/-- Elements separated by commas, white space anywhere around them. -/
inductive Elems {α : Type} (E : Bytes → α → Prop) : Bytes → List α → Prop
  | one {w w' t : Bytes} {a : α} : White w → White w' → E t a → Elems E (w ++ t ++ w') [a]
  | cons {w w' t r : Bytes} {a : α} {l : List α} : White w → White w' → E t a → Elems E r l →
      Elems E (w ++ t ++ w' ++ 0x2c :: r) (a :: l)

/-- A JSON array. -/
def Array {α : Type} (E : Bytes → α → Prop) (t : Bytes) (l : List α) : Prop :=
  (l = [] ∧ ∃ w, White w ∧ t = 0x5b :: (w ++ [0x5d])) ∨ ∃ r, Elems E r l ∧ t = 0x5b :: (r ++ [0x5d])

/-- The private item that a tag stands for; tags without type or value stand for none. -/
def itemOf (fs : List Bytes) : Option Item :=
  match fs with
  | t :: v :: r => if t = [] ∨ v = [] then none else some ⟨t, v, nonempty r.head?, nonempty (r.drop 1).head?, true⟩
  | _ => none

/-- At most four fields, none longer than the reader allows. -/
def Room (fs : List Bytes) : Prop := fs.length ≤ 4 ∧ ∀ (i : Nat) (t : Bytes), fs[i]? = some t → t.length ≤ [63, 1023, 511, 255].getD i 0

end Nostr.Nip51.Spec

namespace Nostr.Nip51.Props
open Nostr Nostr.Event Nostr.Nip51 Nostr.Nip51.Spec

theorem quad_hex4 {q : Bytes} {n : Nat} (h : Quad q n) (r : Bytes) : q.length = 4 ∧ hex4 (q ++ r) = some (n, r) := by
  obtain ⟨hn, h⟩ := h
  have hl := congrArg List.length h
  rw [Hex.lowerHex_length, Hex.hexText_length] at hl
  match q, hl with
  | [a, b, c, d], _ =>
    refine ⟨rfl, ?_⟩
    simp only [Hex.Spec.hexText, List.flatMap_cons, List.flatMap_nil, Hex.hexOf_eq, List.append_nil, List.cons_append,
      List.nil_append] at h
    have e : Hex.Spec.lowerHex [a, b, c, d] = [Hex.low a, Hex.low b, Hex.low c, Hex.low d] := rfl
    rw [e] at h
    simp only [List.cons.injEq, and_true, UInt8.toNat_ofNat'] at h
    obtain ⟨h1, h2, h3, h4⟩ := h
    rw [Nat.mod_eq_of_lt (by omega : n / 256 < 2 ^ 8)] at h1 h2
    rw [Nat.mod_eq_of_lt (by omega : n % 256 < 2 ^ 8)] at h3 h4
    have a1 := (Hex.nibble_iff (by omega)).2 h1
    have a2 := (Hex.nibble_iff (by omega)).2 h2
    have a3 := (Hex.nibble_iff (by omega)).2 h3
    have a4 := (Hex.nibble_iff (by omega)).2 h4
    simp only [hex4, List.cons_append, List.nil_append, a1, a2, a3, a4, Option.some.injEq, Prod.mk.injEq, and_true]
    omega

theorem utf8_char {n : Nat} (h : n < 0xd800 ∨ (0xdfff < n ∧ n < 0x110000)) :
    utf8 n = String.utf8EncodeChar (Char.ofNat n) := by
  have hv : (Char.ofNat n).val.toNat = n := by
    have hv : n.isValidChar := by
      rcases h with h | h
      · exact .inl h
      · exact .inr h
    rw [Char.ofNat, dif_pos hv]
    rfl
  unfold utf8 String.utf8EncodeChar
  simp only [hv]
  have c2 : ∀ {a b c d : Nat}, a = c → b = d → [UInt8.ofNat a, UInt8.ofNat b] = [UInt8.ofNat c, UInt8.ofNat d] := by
    rintro _ _ _ _ rfl rfl; rfl
  have c1 : ∀ {a b : Nat} {x y : Bytes}, a = b → x = y → UInt8.ofNat a :: x = UInt8.ofNat b :: y := by
    rintro _ _ _ _ rfl rfl; rfl
  by_cases h1 : n ≤ 0x7f
  · rw [if_pos h1, if_pos h1]
  rw [if_neg h1, if_neg h1]
  by_cases h2 : n ≤ 0x7ff
  · rw [if_pos h2, if_pos h2]
    exact c2 (by omega) (by omega)
  rw [if_neg h2, if_neg h2]
  by_cases h3 : n ≤ 0xffff
  · rw [if_pos h3, if_pos h3]
    exact c1 (by omega) (c2 (by omega) (by omega))
  rw [if_neg h3, if_neg h3, if_pos (by omega)]
  exact c1 (by omega) (c1 (by omega) (c2 (by omega) (by omega)))

theorem utf8_len (n : Nat) : 1 ≤ (utf8 n).length := by
  unfold utf8
  repeat' split
  all_goals simp

/-- Reading a field. -/
theorem field_body {raw m : Bytes} (h : Body raw m) (max : Nat) (rest : Bytes) : ∀ (acc : Bytes) (f : Nat), raw.length < f →
    acc.length + m.length ≤ max → field max f acc (raw ++ 0x22 :: rest) = some (acc ++ m, 0x22 :: rest) := by
  induction h with
  | nil =>
    intro acc f hf _
    obtain ⟨f, rfl⟩ : ∃ g, f = g + 1 := ⟨f - 1, by simp at hf; omega⟩
    simp [field]
  | @char c r m h1 h2 h3 hb ih =>
    intro acc f hf hm
    obtain ⟨f, rfl⟩ : ∃ g, f = g + 1 := ⟨f - 1, by omega⟩
    simp only [List.length_cons] at hf hm
    simp only [List.cons_append, field]
    rw [if_neg h2, if_neg (by omega), if_neg h3, ih _ _ (by omega) (by simp; omega)]
    simp
  | @short e c r m h1 hb ih =>
    intro acc f hf hm
    obtain ⟨f, rfl⟩ : ∃ g, f = g + 1 := ⟨f - 1, by omega⟩
    simp only [List.length_cons] at hf hm
    have he : e ≠ 0x75 ∧ simpleEsc e = c := by
      have : ∀ p ∈ shortEscapes, p.1 ≠ 0x75 ∧ simpleEsc p.1 = p.2 := by decide +kernel
      exact this _ h1
    simp only [List.cons_append, field]
    rw [if_neg (by decide), if_neg (by omega), if_pos trivial, if_neg he.1, he.2, ih _ _ (by omega) (by simp; omega)]
    simp
  | @unicode q r m n hq h0 hn hb ih =>
    intro acc f hf hm
    obtain ⟨f, rfl⟩ : ∃ g, f = g + 1 := ⟨f - 1, by omega⟩
    have hlt := hq.1
    rw [← utf8_char (by omega)] at hm ⊢
    have hlen := utf8_len n
    obtain ⟨hql, hqv⟩ := quad_hex4 hq (r ++ 0x22 :: rest)
    simp only [List.length_cons, List.length_append] at hf hm
    have hu : uEscape (q ++ (r ++ 0x22 :: rest)) = (utf8 n, r ++ 0x22 :: rest) := by
      unfold uEscape
      rw [hqv]
      simp only
      rw [if_neg (by omega), if_neg (by omega)]
    simp only [List.cons_append, List.append_assoc, field]
    rw [if_neg (by decide), if_neg (by omega), if_pos trivial, if_pos trivial, hu]
    simp only
    rw [if_pos (by omega), ih _ _ (by omega) (by simp; omega)]
    simp
  | @pair q p r m n hi lo hq hp h1 h2 hn hb ih =>
    intro acc f hf hm
    obtain ⟨f, rfl⟩ : ∃ g, f = g + 1 := ⟨f - 1, by omega⟩
    rw [← utf8_char (by omega)] at hm ⊢
    have hlen := utf8_len n
    obtain ⟨hql, hqv⟩ := quad_hex4 hq (0x5c :: 0x75 :: (p ++ (r ++ 0x22 :: rest)))
    obtain ⟨hpl, hpv⟩ := quad_hex4 hp (r ++ 0x22 :: rest)
    simp only [List.length_cons, List.length_append] at hf hm
    have hu : uEscape (q ++ (0x5c :: 0x75 :: (p ++ (r ++ 0x22 :: rest)))) = (utf8 n, r ++ 0x22 :: rest) := by
      unfold uEscape
      rw [hqv]
      simp only
      rw [if_pos (by omega), if_pos ⟨trivial, trivial⟩, hpv]
      simp only
      rw [if_pos (by omega)]
      have : 65536 + (0xd800 + hi - 0xd800) * 1024 + (0xdc00 + lo - 0xdc00) = n := by omega
      rw [this]
    simp only [List.cons_append, List.append_assoc, field]
    rw [if_neg (by decide), if_neg (by omega), if_pos trivial, if_pos trivial, hu]
    simp only
    rw [if_pos (by omega), ih _ _ (by omega) (by simp; omega)]
    simp

/-- White space and commas. -/
def Gap (g : Bytes) : Prop := ∀ c ∈ g, c = 0x20 ∨ c = 0x0a ∨ c = 0x0d ∨ c = 0x09 ∨ c = 0x2c

theorem white_gap {w : Bytes} (h : White w) : Gap w := by
  intro c hc
  rcases h c hc with h | h | h | h <;> simp [h]

theorem gap_append {a b : Bytes} (ha : Gap a) (hb : Gap b) : Gap (a ++ b) := by
  intro c hc
  rcases List.mem_append.1 hc with h | h
  · exact ha c h
  · exact hb c h

theorem skipWs_gap {g : Bytes} (h : Gap g) (r : Bytes) : skipWs (g ++ r) = skipWs r := by
  induction g with
  | nil => rfl
  | cons c g ih =>
    rw [List.cons_append, skipWs, if_pos (h c (by simp)), ih fun d hd => h d (by simp [hd])]

theorem fields_close {g : Bytes} (hg : Gap g) (f k : Nat) (acc : List Bytes) (rest : Bytes) :
    fields (f + 1) k acc (g ++ 0x5d :: rest) = some (acc, 0x5d :: rest) := by
  cases g with
  | nil => exact fields_end f k acc rest
  | cons c g =>
    have hc : c ≠ 0x5d := by
      rintro rfl
      have := hg 0x5d (by simp)
      revert this; decide
    rw [fields, if_neg (by simp [hc]), skipWs_gap hg, skipWs_close]
    simp

theorem fields_quoted {t m : Bytes} (h : Quoted t m) {g : Bytes} (hg : Gap g) {k : Nat} (hk : k < 4) (hm : m.length ≤ room k)
    (acc : List Bytes) (rest : Bytes) (f : Nat) :
    fields (f + 1) k acc (g ++ (t ++ rest)) = fields f (k + 1) (acc ++ [m]) rest := by
  obtain ⟨raw, rfl, hb⟩ := h
  have hw : skipWs (g ++ (0x22 :: (raw ++ [0x22]) ++ rest)) = 0x22 :: (raw ++ 0x22 :: rest) := by
    rw [skipWs_gap hg, List.cons_append, skipWs_quote]; simp
  have hne : ¬ (g ++ (0x22 :: (raw ++ [0x22]) ++ rest) = [] ∨ (g ++ (0x22 :: (raw ++ [0x22]) ++ rest)).head? = some 0x5d) := by
    cases g with
    | nil => simp
    | cons c g =>
      have hc : c ≠ 0x5d := by
        rintro rfl
        have := hg 0x5d (by simp)
        revert this; decide
      simp [hc]
  rw [fields, if_neg hne, hw]
  simp only
  rw [if_neg (by decide), if_neg (by decide), if_neg (by omega),
    field_body hb (room k) rest [] _ (by simp only [List.length_append, List.length_cons]; omega) (by simpa using hm)]
  simp

theorem fields_elems {r : Bytes} {l : List Bytes} (h : Elems Quoted r l) : ∀ (g : Bytes), Gap g → ∀ (k f : Nat) (acc : List Bytes)
    (rest : Bytes), k + l.length ≤ 4 → (∀ (i : Nat) (t : Bytes), l[i]? = some t → t.length ≤ room (k + i)) → l.length < f →
    fields f k acc (g ++ (r ++ 0x5d :: rest)) = some (acc ++ l, 0x5d :: rest) := by
  induction h with
  | @one w w' t a h1 h2 ht =>
    intro g hg k f acc rest hk hr hf
    simp only [List.length_singleton] at hk hf
    obtain ⟨f, rfl⟩ : ∃ g, f = g + 2 := ⟨f - 2, by omega⟩
    have e : g ++ (w ++ t ++ w' ++ 0x5d :: rest) = (g ++ w) ++ (t ++ (w' ++ 0x5d :: rest)) := by simp
    rw [e, fields_quoted ht (gap_append hg (white_gap h1)) (by omega) (show a.length ≤ room k from hr 0 a rfl), fields_close (white_gap h2)]
  | @cons w w' t r a l h1 h2 ht hl ih =>
    intro g hg k f acc rest hk hr hf
    simp only [List.length_cons] at hk hf
    obtain ⟨f, rfl⟩ : ∃ g, f = g + 1 := ⟨f - 1, by omega⟩
    have e : g ++ (w ++ t ++ w' ++ 0x2c :: r ++ 0x5d :: rest) = (g ++ w) ++ (t ++ ((w' ++ [0x2c]) ++ (r ++ 0x5d :: rest))) := by simp
    rw [e, fields_quoted ht (gap_append hg (white_gap h1)) (by omega) (show a.length ≤ room k from hr 0 a rfl),
      ih _ (gap_append (white_gap h2) (by intro c hc; simp at hc; simp [hc])) (k + 1) f _ rest (by omega)
        (fun i t ht => by have := hr (i + 1) t (by simpa using ht); rwa [show k + 1 + i = k + (i + 1) by omega]) (by omega)]
    simp

theorem fields_array {t : Bytes} {l : List Bytes} (h : Array Quoted t l) (hr : Room l) : ∃ b, t = 0x5b :: b ∧ l.length < b.length ∧
    ∀ (f : Nat) (rest : Bytes), l.length < f → ∃ r1, b ++ rest = r1 ++ 0x5d :: rest ∧ fields f 0 [] (b ++ rest) = some (l, 0x5d :: rest) := by
  have hroom : ∀ (i : Nat) (t : Bytes), l[i]? = some t → t.length ≤ room (0 + i) := by
    intro i t ht
    have := hr.2 i t ht
    have hi : i < l.length := (List.getElem?_eq_some_iff.1 ht).1
    have h4 := hr.1
    rw [Nat.zero_add]
    match i, this, (by omega : i < 4) with
    | 0, h, _ => exact h
    | 1, h, _ => exact h
    | 2, h, _ => exact h
    | 3, h, _ => exact h
  rcases h with ⟨rfl, w, hw, rfl⟩ | ⟨r, he, rfl⟩
  · refine ⟨_, rfl, by simp, fun f rest hf => ⟨w, by simp, ?_⟩⟩
    obtain ⟨f, rfl⟩ : ∃ g, f = g + 1 := ⟨f - 1, by simp at hf; omega⟩
    rw [List.append_assoc]
    exact fields_close (white_gap hw) f 0 [] rest
  · refine ⟨_, rfl, ?_, fun f rest hf => ⟨r, by simp, ?_⟩⟩
    · have : l.length ≤ r.length := by
        clear hroom hr
        induction he with
        | one _ _ ht => obtain ⟨raw, rfl, _⟩ := ht; simp; omega
        | cons _ _ ht _ ih => simp; omega
      simp; omega
    · rw [List.append_assoc]
      exact fields_elems he [] (by intro c hc; simp at hc) 0 f [] rest (by have := hr.1; omega) hroom hf

theorem quad_cstr {q : Bytes} {n : Nat} (h : Quad q n) : CStr q := by
  intro h0
  obtain ⟨-, h⟩ := h
  have h1 : (0 : UInt8) ∈ Hex.Spec.lowerHex q := by
    unfold Hex.Spec.lowerHex
    exact List.mem_map.2 ⟨0, h0, by decide⟩
  rw [h] at h1
  simp only [Hex.Spec.hexText, List.mem_flatMap, Hex.hexOf_eq] at h1
  obtain ⟨b, -, h1⟩ := h1
  have hd : ∀ v < 16, Hex.dig v ≠ 0 := by decide +kernel
  have hb := b.toNat_lt
  simp only [List.mem_cons, List.not_mem_nil, or_false] at h1
  rcases h1 with h1 | h1
  · exact hd _ (by omega) h1.symm
  · exact hd _ (by omega) h1.symm

theorem utf8_cstr {n : Nat} (h : n ≠ 0) (h2 : n < 0x110000) : CStr (utf8 n) := by
  have hz : ∀ x : Nat, 0 < x → x < 256 → (0 : UInt8) ≠ UInt8.ofNat x := by
    intro x h1 h2 h3
    have := congrArg UInt8.toNat h3
    rw [UInt8.toNat_ofNat', Nat.mod_eq_of_lt (by omega)] at this
    simp at this; omega
  unfold utf8 CStr
  repeat' split
  all_goals simp only [List.mem_cons, List.not_mem_nil, or_false, not_or]
  · exact hz _ (by omega) (by omega)
  · exact ⟨hz _ (by omega) (by omega), hz _ (by omega) (by omega)⟩
  · exact ⟨hz _ (by omega) (by omega), hz _ (by omega) (by omega), hz _ (by omega) (by omega)⟩
  · exact ⟨hz _ (by omega) (by omega), hz _ (by omega) (by omega), hz _ (by omega) (by omega), hz _ (by omega) (by omega)⟩
  · decide

theorem cstr_cons {c : UInt8} {s : Bytes} (hc : c ≠ 0) (hs : CStr s) : CStr (c :: s) := by
  intro h
  rcases List.mem_cons.1 h with h | h
  · exact hc h.symm
  · exact hs h

/-- A JSON string contains no NUL. -/
theorem body_cstr {raw m : Bytes} (h : Body raw m) : CStr m ∧ CStr raw := by
  induction h with
  | nil => exact ⟨by decide, by decide⟩
  | @char c r m h1 h2 h3 hb ih =>
    have hc : c ≠ 0 := by rintro rfl; revert h1; decide
    exact ⟨cstr_cons hc ih.1, cstr_cons hc ih.2⟩
  | @short e c r m h1 hb ih =>
    have : ∀ p ∈ shortEscapes, p.1 ≠ 0 ∧ p.2 ≠ 0 := by decide +kernel
    exact ⟨cstr_cons (this _ h1).2 ih.1, cstr_cons (by decide) (cstr_cons (this _ h1).1 ih.2)⟩
  | @unicode q r m n hq h0 hn hb ih =>
    have hlt := hq.1
    rw [← utf8_char (by omega)]
    exact ⟨cstr_append (utf8_cstr h0 (by omega)) ih.1,
      cstr_cons (by decide) (cstr_cons (by decide) (cstr_append (quad_cstr hq) ih.2))⟩
  | @pair q p r m n hi lo hq hp h1 h2 hn hb ih =>
    rw [← utf8_char (by omega)]
    exact ⟨cstr_append (utf8_cstr (by omega) (by omega)) ih.1,
      cstr_cons (by decide) (cstr_cons (by decide) (cstr_append (quad_cstr hq) (cstr_cons (by decide) (cstr_cons (by decide)
        (cstr_append (quad_cstr hp) ih.2)))))⟩

theorem white_cstr {w : Bytes} (h : White w) : CStr w := by
  intro h0
  have := h 0 h0
  revert this; decide

theorem quoted_cstr {t m : Bytes} (h : Quoted t m) : CStr m ∧ CStr t := by
  obtain ⟨raw, rfl, hb⟩ := h
  exact ⟨(body_cstr hb).1, cstr_cons (by decide) (cstr_append (body_cstr hb).2 (by decide))⟩

theorem elems_cstr {α : Type} {E : Bytes → α → Prop} (hE : ∀ t a, E t a → CStr t) {r : Bytes} {l : List α} (h : Elems E r l) : CStr r := by
  induction h with
  | one h1 h2 ht => exact cstr_append (cstr_append (white_cstr h1) (hE _ _ ht)) (white_cstr h2)
  | cons h1 h2 ht _ ih =>
    exact cstr_append (cstr_append (cstr_append (white_cstr h1) (hE _ _ ht)) (white_cstr h2)) (cstr_cons (by decide) ih)

theorem array_cstr {α : Type} {E : Bytes → α → Prop} (hE : ∀ t a, E t a → CStr t) {t : Bytes} {l : List α} (h : Array E t l) : CStr t := by
  rcases h with ⟨_, w, hw, rfl⟩ | ⟨r, hr, rfl⟩
  · exact cstr_cons (by decide) (cstr_append (white_cstr hw) (by decide))
  · exact cstr_cons (by decide) (cstr_append (elems_cstr hE hr) (by decide))

theorem elems_all {α : Type} {E : Bytes → α → Prop} {p : α → Prop} (hE : ∀ t a, E t a → p a) {r : Bytes} {l : List α}
    (h : Elems E r l) : ∀ a ∈ l, p a := by
  induction h with
  | one _ _ ht => intro a ha; simp at ha; subst ha; exact hE _ _ ht
  | cons _ _ ht _ ih =>
    intro a ha
    rcases List.mem_cons.1 ha with rfl | ha
    · exact hE _ _ ht
    · exact ih a ha

theorem array_texts {t : Bytes} {l : List Bytes} (h : Array Quoted t l) : ∀ m ∈ l, CStr m := by
  rcases h with ⟨rfl, _⟩ | ⟨r, hr, rfl⟩
  · simp
  · exact elems_all (E := Quoted) (fun t m h => (quoted_cstr h).1) hr

theorem fromFields_itemOf {fs : List Bytes} (hc : ∀ t ∈ fs, CStr t) : fromFields fs = itemOf fs := by
  have hcs : ∀ i, cs fs i = fs.getD i [] := by
    intro i
    unfold cs
    apply takeWhile_cstr
    rw [List.getD_eq_getElem?_getD]
    cases h : fs[i]? with
    | none => simp [CStr]
    | some t => exact hc t (List.mem_of_getElem? h)
  unfold fromFields
  simp only [hcs]
  have hopt : ∀ o : Option Bytes, opt (o.getD []) = nonempty o := by
    intro o
    cases o with
    | none => rfl
    | some t => by_cases h : t = [] <;> simp [opt, nonempty, h, Option.filter]
  match fs with
  | [] => rfl
  | [t] => simp [itemOf]
  | t :: v :: r =>
    simp only [itemOf, List.getD_cons_zero, List.getD_cons_succ]
    split
    · rfl
    · rw [← hopt, ← hopt]
      congr 2
      · congr 1; cases r <;> rfl
      · congr 1
        cases r with
        | nil => rfl
        | cons a r => cases r <;> rfl

theorem parse_gap_close {g : Bytes} (hg : Gap g) (f : Nat) (l : Lst) (rest : Bytes) :
    parseItems (f + 1) l (g ++ 0x5d :: rest) = .ok l := by
  rw [parseItems, if_neg (by simp), skipWs_gap hg, skipWs_close]
  simp

/-- Reading one array of strings. -/
theorem parse_array {t : Bytes} {fs : List Bytes} (h : Array Quoted t fs) (hr : Room fs) {g : Bytes} (hg : Gap g) {l : Lst} {s : List Item}
    (hl : Rep l s) (hs : s.length < 4096) (f : Nat) (rest : Bytes) : ∃ l1, Rep l1 (s ++ (itemOf fs).toList) ∧ Same l l1 ∧
    parseItems (f + 1) l (g ++ (t ++ rest)) = parseItems f l1 rest := by
  obtain ⟨b, rfl, hlen, hb⟩ := fields_array h hr
  obtain ⟨r1, -, hf⟩ := hb ((b ++ rest).length + 1) rest (by simp; omega)
  have hit := fromFields_itemOf (array_texts h)
  rw [parseItems, if_neg (by simp), skipWs_gap hg, List.cons_append, skipWs_open]
  simp only
  rw [if_neg (by decide), if_neg (by decide), hf]
  simp only [hit, List.head?_cons, if_true, List.drop_succ_cons, List.drop_zero]
  cases hi : itemOf fs with
  | none => exact ⟨l, by simpa using hl, same_refl l, rfl⟩
  | some it =>
    obtain ⟨l1, e1, e2, e3⟩ := addItem_ok it hl hs
    exact ⟨l1, e2, e3, by simp only [e1, Res.bind_ok]⟩

theorem parse_elems {r : Bytes} {docs : List (List Bytes)} (h : Elems (Array Quoted) r docs) (hr : ∀ fs ∈ docs, Room fs) :
    ∀ (g : Bytes), Gap g → ∀ (l : Lst) (s : List Item), Rep l s → s.length + docs.length ≤ 4096 → ∀ (f : Nat) (rest : Bytes), docs.length < f →
    ∃ l1, parseItems f l (g ++ (r ++ 0x5d :: rest)) = .ok l1 ∧ Rep l1 (s ++ docs.filterMap itemOf) ∧ Same l l1 := by
  induction h with
  | @one w w' t a h1 h2 ht =>
    intro g hg l s hl hs f rest hf
    simp only [List.length_singleton] at hs hf
    obtain ⟨f, rfl⟩ : ∃ g, f = g + 2 := ⟨f - 2, by omega⟩
    have e : g ++ (w ++ t ++ w' ++ 0x5d :: rest) = (g ++ w) ++ (t ++ (w' ++ 0x5d :: rest)) := by simp
    obtain ⟨l1, a1, a2, a3⟩ := parse_array ht (hr a (by simp)) (gap_append hg (white_gap h1)) hl (by omega) (f + 1) (w' ++ 0x5d :: rest)
    refine ⟨l1, ?_, ?_, a2⟩
    · rw [e, a3, parse_gap_close (white_gap h2)]
    · cases hi : itemOf a <;> simpa [hi] using a1
  | @cons w w' t r a docs h1 h2 ht hd ih =>
    intro g hg l s hl hs f rest hf
    simp only [List.length_cons] at hs hf
    obtain ⟨f, rfl⟩ : ∃ g, f = g + 1 := ⟨f - 1, by omega⟩
    have e : g ++ (w ++ t ++ w' ++ 0x2c :: r ++ 0x5d :: rest) = (g ++ w) ++ (t ++ ((w' ++ [0x2c]) ++ (r ++ 0x5d :: rest))) := by simp
    obtain ⟨l1, a1, a2, a3⟩ := parse_array ht (hr a (by simp)) (gap_append hg (white_gap h1)) hl (by omega) f ((w' ++ [0x2c]) ++ (r ++ 0x5d :: rest))
    have hle : (itemOf a).toList.length ≤ 1 := by cases itemOf a <;> simp
    obtain ⟨l2, b1, b2, b3⟩ := ih (fun fs hfs => hr fs (by simp [hfs])) _
      (gap_append (white_gap h2) (b := [0x2c]) (by intro c hc; simp at hc; simp [hc])) l1 _ a1 (by simp only [List.length_append]; omega) f rest (by omega)
    refine ⟨l2, by rw [e, a3, b1], ?_, same_trans a2 b3⟩
    cases hi : itemOf a <;> simpa [hi] using b2

/-- Reading an event whose content is the encryption of `text`. -/
theorem from_content {N : Nip44.Nc} {B : Nip44.B64} {cfg : Option Config.Config} {k : Keys}
    (hN : Nip44.Spec.NcOK N k.sk k.pk k.sk k.pk) (hB : Nip44.Spec.B64OK B) (hcfg : Nip44.Spec.CfgOK cfg)
    (henc : ∀ x, x ≠ [] → B.enc x ≠ []) {nonce : Bytes} (hn : nonce.length = 32) {e : Event} {text ct : Bytes}
    (hlen : text.length ≤ 61440) (hcs : CStr text) (hct : Nip44.encrypt N B cfg (some nonce) k.sk k.pk text = .ok ct)
    (hc : e.content = some ct) {pub : Lst} (hp : fromEvent N B cfg none e = .ok pub) :
    fromEvent N B cfg (some k) e = parsePrivate pub text ∧ ∃ s, Rep pub s := by
  have hdec := Nip44.Props.C15_roundtrip_partial hN hB hcfg hn hlen hct
  have hne : ct ≠ [] := by
    unfold Nip44.encrypt at hct
    simp only at hct
    obtain ⟨pd, g1, g2⟩ := Res.bind_eq_ok.1 hct
    cases hcv : N.conv k.sk k.pk with
    | none => rw [hcv] at g2; simp at g2
    | some ck =>
      rw [hcv] at g2
      simp only [Res.ok.injEq] at g2
      rw [← g2]
      exact henc _ (by simp)
  unfold fromEvent at hp
  obtain ⟨l, h1, h2⟩ := Res.bind_eq_ok.1 hp
  cases h2
  obtain ⟨s, hs, -⟩ := (readTags_any e.tags (create e.kind) [] (rep_create _) (by simp)).2 _ h1
  refine ⟨?_, s, hs⟩
  unfold fromEvent
  simp only [h1, Res.bind_ok, Event.text, hc, Option.getD_some]
  rw [if_neg hne, hdec]
  simp only [Res.bind_ok]
  rw [takeWhile_cstr hcs]

/-- C118: private items written by any program are read: if the content of an event is the encryption of a JSON array
of arrays of strings - white space anywhere, any RFC 8259 escapes but `\b` and `\f`, surrogate pairs included - then
reading the event gives its public items followed by one private item for every inner array with type and value.
Missing: `\b` and `\f` (`C118_escape_refuted`), more than four fields (`C118_fifth_refuted`), fields longer than the
reader's buffers, and texts of more than 61440 bytes (C15). -/
theorem C118_read_partial {N : Nip44.Nc} {B : Nip44.B64} {cfg : Option Config.Config} {k : Keys}
    (hN : Nip44.Spec.NcOK N k.sk k.pk k.sk k.pk) (hB : Nip44.Spec.B64OK B) (hcfg : Nip44.Spec.CfgOK cfg)
    (henc : ∀ x, x ≠ [] → B.enc x ≠ []) {nonce : Bytes} (hn : nonce.length = 32) {e : Event} {w text ct : Bytes} {docs : List (List Bytes)}
    (hw : White w) (hd : Array (Array Quoted) text docs) (hr : ∀ fs ∈ docs, Room fs) (hlen : (w ++ text).length ≤ 61440)
    (hct : Nip44.encrypt N B cfg (some nonce) k.sk k.pk (w ++ text) = .ok ct) (hc : e.content = some ct)
    {pub : Lst} (hp : fromEvent N B cfg none e = .ok pub) (hcount : pub.items.length + docs.length ≤ 4096) :
    ∃ l, fromEvent N B cfg (some k) e = .ok l ∧ l.items = pub.items ++ docs.filterMap itemOf ∧ l.kind = pub.kind ∧ l.d = pub.d ∧
      l.title = pub.title ∧ l.descr = pub.descr ∧ l.image = pub.image := by
  have hcs : CStr (w ++ text) :=
    cstr_append (white_cstr hw) (array_cstr (fun t l h => array_cstr (fun t m h => (quoted_cstr h).2) h) hd)
  obtain ⟨h1, s, hs⟩ := from_content hN hB hcfg henc hn hlen hcs hct hc hp
  have hit := rep_items hs
  rw [hit] at hcount
  rw [h1]
  have hdrop : ∀ x : Bytes, (w ++ 0x5b :: x).dropWhile (· ≠ 0x5b) = 0x5b :: x := by
    intro x
    clear hcs hlen hct hd h1
    induction w with
    | nil => simp
    | cons c w ih =>
      have : c ≠ 0x5b := by rintro rfl; have := hw 0x5b (by simp); revert this; decide
      rw [List.cons_append, List.dropWhile_cons, if_pos (by simpa using this), ih fun d hd => hw d (by simp [hd])]
  have fin : ∀ l, Rep l (s ++ docs.filterMap itemOf) → Same pub l → l.items = pub.items ++ docs.filterMap itemOf ∧ l.kind = pub.kind ∧
      l.d = pub.d ∧ l.title = pub.title ∧ l.descr = pub.descr ∧ l.image = pub.image := by
    intro l h hsame
    exact ⟨by rw [rep_items h, hit], hsame.1, hsame.2.1, hsame.2.2.1, hsame.2.2.2.1, hsame.2.2.2.2⟩
  unfold parsePrivate
  rcases hd with ⟨rfl, w2, hw2, rfl⟩ | ⟨r, he, rfl⟩
  · rw [if_neg (by simp; omega), hdrop]
    simp only
    exact ⟨pub, parse_gap_close (white_gap hw2) _ _ _, fin pub (by simpa using hs) (same_refl _)⟩
  · rw [if_neg (by simp; omega), hdrop]
    simp only
    have hlr : docs.length ≤ r.length := by
      clear hr hcount fin hlen hct hcs hdrop h1
      induction he with
      | one _ _ ht => rcases ht with ⟨_, w, _, rfl⟩ | ⟨_, _, rfl⟩ <;> simp <;> omega
      | cons _ _ ht _ ih => simp; omega
    obtain ⟨l1, a1, a2, a3⟩ := parse_elems he hr [] (by intro c hc; simp at hc) pub s hs hcount ((r ++ [0x5d]).length + 1) [] (by simp; omega)
    exact ⟨l1, a1, fin l1 a2 a3⟩

/-- C118, what is missing: the JSON escape `\b` is read as the letter b. -/
theorem C118_escape_refuted {N : Nip44.Nc} {B : Nip44.B64} {cfg : Option Config.Config} {k : Keys}
    (hN : Nip44.Spec.NcOK N k.sk k.pk k.sk k.pk) (hB : Nip44.Spec.B64OK B) (hcfg : Nip44.Spec.CfgOK cfg)
    (henc : ∀ x, x ≠ [] → B.enc x ≠ []) {nonce : Bytes} (hn : nonce.length = 32) {e : Event} {ct : Bytes} (ht : e.tags = [])
    (hct : Nip44.encrypt N B cfg (some nonce) k.sk k.pk (c!"[[\"word\",\"a\\bc\"]]") = .ok ct) (hc : e.content = some ct) :
    ∃ l, fromEvent N B cfg (some k) e = .ok l ∧ l.items = [⟨c!"word", c!"abc", none, none, true⟩] := by
  have hp : fromEvent N B cfg none e = .ok (create e.kind) := by
    unfold fromEvent; rw [ht]; rfl
  obtain ⟨h1, -⟩ := from_content hN hB hcfg henc hn (by decide) (by decide) hct hc hp
  rw [h1]
  exact ⟨_, rfl, rfl⟩

/-- C118, what is missing: an escaped quote in a fifth field makes the whole list unreadable. -/
theorem C118_fifth_refuted {N : Nip44.Nc} {B : Nip44.B64} {cfg : Option Config.Config} {k : Keys}
    (hN : Nip44.Spec.NcOK N k.sk k.pk k.sk k.pk) (hB : Nip44.Spec.B64OK B) (hcfg : Nip44.Spec.CfgOK cfg)
    (henc : ∀ x, x ≠ [] → B.enc x ≠ []) {nonce : Bytes} (hn : nonce.length = 32) {e : Event} {ct : Bytes} (ht : e.tags = [])
    (hct : Nip44.encrypt N B cfg (some nonce) k.sk k.pk
      (c!"[[\"t\",\"x\",\"\",\"\",\"\\\"\"],[\"t\",\"y\"]]") = .ok ct) (hc : e.content = some ct) :
    fromEvent N B cfg (some k) e = .err .jsonParse := by
  have hp : fromEvent N B cfg none e = .ok (create e.kind) := by
    unfold fromEvent; rw [ht]; rfl
  obtain ⟨h1, -⟩ := from_content hN hB hcfg henc hn (by decide) (by decide) hct hc hp
  rw [h1]
  rfl

/-- Non-vacuity: an array with white space, a surrogate pair (U+1F600) and two short escapes. -/
example : Array (Array Quoted) (c!"[ [\"t\", \"\\uD83d\\uDe00\\n\\/\"]\n]") [[c!"t", [0xf0, 0x9f, 0x98, 0x80, 0x0a, 0x2f]]] := by
  have b1 : Body (c!"t") (c!"t") := .char (by decide) (by decide) (by decide) .nil
  have b2 : Body (c!"\\uD83d\\uDe00\\n\\/") [0xf0, 0x9f, 0x98, 0x80, 0x0a, 0x2f] :=
    .pair (q := c!"D83d") (p := c!"De00") (hi := 0x3d) (lo := 0x200) (n := 0x1f600) ⟨by decide, by decide⟩ ⟨by decide, by decide⟩
      (by decide) (by decide) rfl (.short (by decide) (.short (by decide) .nil))
  exact .inr ⟨c!" [\"t\", \"\\uD83d\\uDe00\\n\\/\"]\n",
    .one (w := c!" ") (w' := c!"\n") (t := c!"[\"t\", \"\\uD83d\\uDe00\\n\\/\"]") (by decide) (by decide)
      (.inr ⟨c!"\"t\", \"\\uD83d\\uDe00\\n\\/\"",
        .cons (w := []) (w' := []) (t := c!"\"t\"") (r := c!" \"\\uD83d\\uDe00\\n\\/\"") (by decide) (by decide) ⟨c!"t", rfl, b1⟩
          (.one (w := c!" ") (w' := []) (t := c!"\"\\uD83d\\uDe00\\n\\/\"") (by decide) (by decide) ⟨_, rfl, b2⟩), rfl⟩), rfl⟩

end Nostr.Nip51.Props
