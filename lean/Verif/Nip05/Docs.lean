import Verif.Nip05.Props

/-! # NIP-05 documents -/

namespace Nostr.Nip05
open Nostr Nostr.Json

/-- A search pattern: a string without quotes and backslashes. -/
structure Plain (n : Bytes) : Prop where
  quote : ∀ c ∈ n, c ≠ 0x22
  slash : ∀ c ∈ n, c ≠ 0x5c

theorem escChar_cases (c : UInt8) : (escChar c = [c] ∧ c ≠ 0x22 ∧ c ≠ 0x5c) ∨
    (∃ p, escChar c = [0x5c, p]) ∨ (∃ a b, escChar c = [0x5c, 0x75, 0x30, 0x30, Hex.digit a, Hex.digit b] ∧ a < 16 ∧ b < 16) := by
  unfold escChar
  repeat' split
  all_goals first
    | (exact .inr (.inl ⟨_, rfl⟩))
    | skip
  · refine .inr (.inr ⟨_, _, rfl, ?_, ?_⟩)
    · have := UInt8.toNat_lt c; omega
    · omega
  · rename_i h1 h2 _ _ _ _ _ _
    exact .inl ⟨rfl, h1, h2⟩

/-- A body that ends where a plain text ends is that text. -/
theorem body_end {n : Bytes} (hn : Plain n) (k s s' : Bytes) (h : escape k ++ 0x22 :: s = n ++ 0x22 :: s') :
    escape k = n ∧ s = s' := by
  induction k generalizing n with
  | nil =>
    cases n with
    | nil => simpa [escape] using h
    | cons a n =>
      simp only [escape, List.flatMap_nil, List.nil_append, List.cons_append, List.cons.injEq] at h
      exact absurd h.1.symm (hn.quote a (by simp))
  | cons c k ih =>
    have hf : escape (c :: k) = escChar c ++ escape k := by simp [escape]
    rw [hf] at h ⊢
    rcases escChar_cases c with ⟨e, h1, h2⟩ | ⟨p, e⟩ | ⟨a, b, e, -⟩
    · rw [e] at h ⊢
      cases n with
      | nil => simp at h; exact absurd h.1 h1
      | cons a n =>
        simp only [List.cons_append, List.nil_append, List.cons.injEq] at h ⊢
        have := ih (n := n) ⟨fun c hc => hn.quote c (List.mem_cons_of_mem _ hc), fun c hc => hn.slash c (List.mem_cons_of_mem _ hc)⟩ h.2
        exact ⟨⟨h.1, this.1⟩, this.2⟩
    · rw [e] at h
      cases n with
      | nil => simp at h
      | cons a n =>
        simp only [List.cons_append, List.cons.injEq] at h
        exact absurd h.1.symm (hn.slash a (by simp))
    · rw [e] at h
      cases n with
      | nil => simp at h
      | cons a n =>
        simp only [List.cons_append, List.cons.injEq] at h
        exact absurd h.1.symm (hn.slash a (by simp))

theorem escape_plain {n k : Bytes} (hn : Plain n) (h : escape k = n) : k = n := by
  induction k generalizing n with
  | nil => simpa [escape] using h
  | cons c k ih =>
    have hf : escape (c :: k) = escChar c ++ escape k := by simp [escape]
    rw [hf] at h
    rcases escChar_cases c with ⟨e, h1, h2⟩ | ⟨p, e⟩ | ⟨a, b, e, -⟩
    · rw [e] at h
      subst h
      simp only [List.cons_append, List.nil_append, List.cons.injEq, true_and]
      exact ih ⟨fun c hc => hn.quote c (by simp [hc]), fun c hc => hn.slash c (by simp [hc])⟩ rfl
    · rw [e] at h; subst h
      exact absurd rfl (hn.slash 0x5c (by simp))
    · rw [e] at h; subst h
      exact absurd rfl (hn.slash 0x5c (by simp))

/-- The pattern for a name. -/
def pat (n : Bytes) : Bytes := 0x22 :: n ++ [0x22]

theorem escaped_cons {c : UInt8} (h : c ≠ 0x5c) (p : Bytes) : escaped (c :: p) = false := by
  simp [escaped, h]

theorem escaped_slash (p : Bytes) : escaped (0x5c :: p) = !escaped p := by
  simp only [escaped, List.takeWhile_cons, beq_self_eq_true, if_true, List.length_cons]
  rw [Bool.eq_iff_iff]
  simp only [beq_iff_eq, Bool.not_eq_true', beq_eq_false_iff_ne]
  omega

/-- Text over which the search goes without finding the pattern, outside strings before and after. -/
def Skips (n t : Bytes) : Prop := ∀ p s, escaped p = false →
  ∃ q, escaped q = false ∧ strstrLoop (pat n) p false (t ++ s) = strstrLoop (pat n) q false s

theorem Skips.nil (n : Bytes) : Skips n [] := fun p _ h => ⟨p, h, rfl⟩

theorem Skips.append {n t u : Bytes} (h1 : Skips n t) (h2 : Skips n u) : Skips n (t ++ u) := by
  intro p s hp
  obtain ⟨q, hq, e⟩ := h1 p (u ++ s) hp
  obtain ⟨r, hr, e2⟩ := h2 q s hq
  exact ⟨r, hr, by rw [List.append_assoc, e, e2]⟩

theorem Skips.char {n : Bytes} {c : UInt8} (h1 : c ≠ 0x22) (h2 : c ≠ 0x5c) : Skips n [c] := by
  intro p s _
  refine ⟨c :: p, escaped_cons h2 p, ?_⟩
  have h3 : ¬ (false = false ∧ (c :: s).take (pat n).length = pat n) := by
    simp only [pat, List.cons_append, List.length_cons, List.take_succ_cons, List.cons.injEq]
    rintro ⟨-, h, -⟩; exact h1 h
  have h4 : ¬ (c = 0x22 ∧ escaped p = false) := fun h => h1 h.1
  rw [List.cons_append, List.nil_append, strstrLoop, if_neg h3, if_neg h4]

theorem Skips.chars {n t : Bytes} (h : ∀ c ∈ t, c ≠ 0x22 ∧ c ≠ 0x5c) : Skips n t := by
  induction t with
  | nil => exact .nil n
  | cons c t ih =>
    exact (Skips.char (h c (by simp)).1 (h c (by simp)).2).append (ih fun x hx => h x (List.mem_cons_of_mem _ hx))

/-- Inside a string nothing is found. -/
theorem in_step (n p s : Bytes) (c : UInt8) : strstrLoop (pat n) p true (c :: s) =
    strstrLoop (pat n) (c :: p) (if c = 0x22 ∧ escaped p = false then false else true) s := by
  have h3 : ¬ (true = false ∧ (c :: s).take (pat n).length = pat n) := by simp
  simp only [strstrLoop, h3, if_false, Bool.not_true]

theorem in_body (n : Bytes) (k : Bytes) : ∀ p s, escaped p = false →
    ∃ q, escaped q = false ∧ strstrLoop (pat n) p true (escape k ++ s) = strstrLoop (pat n) q true s := by
  induction k with
  | nil => exact fun p s h => ⟨p, h, rfl⟩
  | cons c k ih =>
    intro p s hp
    have hf : escape (c :: k) = escChar c ++ escape k := by simp [escape]
    rw [hf, List.append_assoc]
    have hodd : escaped (0x5c :: p) = true := by rw [escaped_slash, hp]; rfl
    rcases escChar_cases c with ⟨e, h1, h2⟩ | ⟨x, e⟩ | ⟨a, b, e, ha, hb⟩
    · obtain ⟨q, hq, e2⟩ := ih (c :: p) s (escaped_cons h2 p)
      refine ⟨q, hq, ?_⟩
      have h3 : ¬ (c = 0x22 ∧ escaped p = false) := fun h => h1 h.1
      rw [e, List.cons_append, List.nil_append, in_step, if_neg h3, e2]
    · have hx : escaped (x :: 0x5c :: p) = false := by
        by_cases h : x = 0x5c
        · rw [h, escaped_slash, hodd]; rfl
        · exact escaped_cons h _
      obtain ⟨q, hq, e2⟩ := ih (x :: 0x5c :: p) s hx
      refine ⟨q, hq, ?_⟩
      have h3 : ¬ ((0x5c : UInt8) = 0x22 ∧ escaped p = false) := by simp
      have h4 : ¬ (x = 0x22 ∧ escaped (0x5c :: p) = false) := by simp [hodd]
      rw [e, List.cons_append, List.cons_append, List.nil_append, in_step, if_neg h3, in_step, if_neg h4, e2]
    · have dig : ∀ m < 16, Hex.digit m ≠ 0x22 ∧ Hex.digit m ≠ 0x5c := by decide +kernel
      obtain ⟨q, hq, e2⟩ := ih (Hex.digit b :: Hex.digit a :: 0x30 :: 0x30 :: 0x75 :: 0x5c :: p) s (escaped_cons (dig b hb).2 _)
      refine ⟨q, hq, ?_⟩
      rw [e]
      simp only [List.cons_append, List.nil_append, in_step, (dig a ha).1, (dig b hb).1, false_and, if_false,
        show (0x5c : UInt8) ≠ 0x22 by decide, show (0x75 : UInt8) ≠ 0x22 by decide, show (0x30 : UInt8) ≠ 0x22 by decide]
      exact e2

/-- The pattern is found at a string iff the string has this text. -/
theorem take_pat {n : Bytes} (hn : Plain n) (k s : Bytes) :
    (quoted k ++ s).take (pat n).length = pat n ↔ escape k = n := by
  simp only [quoted, pat, List.cons_append, List.length_cons, List.take_succ_cons, List.cons.injEq, true_and,
    List.append_assoc, List.nil_append, List.length_append, List.length_nil, Nat.zero_add]
  constructor
  · intro h
    have e := List.take_append_drop (n.length + 1) (escape k ++ 0x22 :: s)
    rw [h] at e
    simp only [List.append_assoc, List.cons_append, List.nil_append] at e
    exact (body_end hn k s _ e.symm).1
  · intro h
    rw [h]
    have : n ++ 0x22 :: s = (n ++ [0x22]) ++ s := by simp
    rw [this, List.take_append_of_le_length (by simp), List.take_of_length_le (by simp)]

theorem Skips.quoted {n : Bytes} (hn : Plain n) {k : Bytes} (h : k ≠ n) : Skips n (quoted k) := by
  intro p s hp
  have h1 : ¬ (false = false ∧ (Json.quoted k ++ s).take (pat n).length = pat n) := by
    rintro ⟨-, h1⟩
    exact h (escape_plain hn ((take_pat hn k s).1 h1))
  obtain ⟨q, hq, e⟩ := in_body n k (0x22 :: p) (0x22 :: s) (escaped_cons (by decide) p)
  refine ⟨0x22 :: q, escaped_cons (by decide) q, ?_⟩
  have h2 : Json.quoted k ++ s = 0x22 :: (escape k ++ 0x22 :: s) := by simp [Json.quoted]
  rw [h2] at h1 ⊢
  rw [strstrLoop, if_neg h1]
  simp only [hp, and_self, if_true, Bool.not_false]
  rw [e, in_step]
  simp [hq]

theorem hit {n : Bytes} (hn : Plain n) (he : escape n = n) (p s : Bytes) :
    strstrLoop (pat n) p false (quoted n ++ s) = some (quoted n ++ s) := by
  have h1 := (take_pat hn n s).2 he
  have h2 : Json.quoted n ++ s = 0x22 :: (escape n ++ 0x22 :: s) := by simp [Json.quoted]
  rw [h2] at h1 ⊢
  rw [strstrLoop, if_pos ⟨rfl, h1⟩]

mutual
theorem skips_print {n : Bytes} (hn : Plain n) (fmt : Bool) : ∀ (j : Json) (d : Nat), Good j → n ∉ Spec.texts j →
    Skips n (print fmt d j)
  | .null, _, _, _ => .chars (by simp [print]; try decide)
  | .tru, _, _, _ => .chars (by simp [print]; try decide)
  | .fls, _, _, _ => .chars (by simp [print]; try decide)
  | .num t, _, hg, _ => by
      simp only [Good] at hg
      have key : ∀ m < 256, isNumChar (UInt8.ofNat m) = true → UInt8.ofNat m ≠ 0x22 ∧ UInt8.ofNat m ≠ 0x5c := by decide +kernel
      refine .chars (fun c hc => ?_)
      have := key c.toNat (UInt8.toNat_lt c)
      simp only [UInt8.ofNat_toNat] at this
      exact this (hg.chars c (by simpa [print] using hc))
  | .str s, _, _, ht => by
      rw [print]
      exact .quoted hn (fun h => ht (by simp [Spec.texts, h]))
  | .arr l, d, hg, ht => by
      rw [print]
      have := (Skips.char (n := n) (c := 0x5b) (by decide) (by decide)).append
        ((skips_elems hn fmt l d (by simpa [Good] using hg) (by simpa [Spec.texts] using ht)).append
          (Skips.char (n := n) (c := 0x5d) (by decide) (by decide)))
      simpa using this
  | .obj m, d, hg, ht => by
      rw [print]
      have h1 : ∀ c ∈ ((if fmt then tabs d else []) ++ [0x7d]), c ≠ 0x22 ∧ c ≠ 0x5c := by
        cases fmt <;> simp [tabs] <;> (try decide)
        rintro c (⟨-, rfl⟩ | rfl) <;> decide
      have h2 : ∀ c ∈ (0x7b :: (if fmt then [0x0a] else [])), c ≠ (0x22 : UInt8) ∧ c ≠ 0x5c := by
        cases fmt <;> simp
      have := (Skips.chars (n := n) h2).append ((skips_members hn fmt m (d + 1) (by simpa [Good] using hg)
        (by simpa [Spec.texts] using ht)).append (Skips.chars (n := n) h1))
      simpa [List.append_assoc] using this
theorem skips_elems {n : Bytes} (hn : Plain n) (fmt : Bool) : ∀ (l : List Json) (d : Nat), GoodL l → n ∉ Spec.textsL l →
    Skips n (printElems fmt d l)
  | [], _, _, _ => .nil n
  | j :: l, d, hg, ht => by
      simp only [GoodL] at hg
      simp only [Spec.textsL, List.mem_append, not_or] at ht
      rw [printElems.eq_def]
      simp only
      refine (skips_print hn fmt j (d + 1) hg.1 ht.1).append ?_
      cases l with
      | nil => exact .nil n
      | cons k l =>
        have h2 : ∀ c ∈ (0x2c :: (if fmt then [0x20] else [])), c ≠ (0x22 : UInt8) ∧ c ≠ 0x5c := by
          cases fmt <;> simp
        exact (Skips.chars (n := n) h2).append (skips_elems hn fmt (k :: l) d hg.2 ht.2)
theorem skips_members {n : Bytes} (hn : Plain n) (fmt : Bool) : ∀ (m : List (Bytes × Json)) (d : Nat), GoodM m →
    n ∉ Spec.textsM m → Skips n (printMembers fmt d m)
  | [], _, _, _ => by rw [printMembers]; exact .nil n
  | (k, j) :: m, d, hg, ht => by
      simp only [GoodM] at hg
      simp only [Spec.textsM, List.cons_append, List.mem_cons, List.mem_append, not_or] at ht
      rw [printMembers.eq_def]
      simp only
      have h1 : ∀ c ∈ (if fmt then tabs d else []), c ≠ 0x22 ∧ c ≠ 0x5c := by
        cases fmt <;> simp [tabs]
      have h2 : ∀ c ∈ (0x3a :: (if fmt then [0x09] else [])), c ≠ (0x22 : UInt8) ∧ c ≠ 0x5c := by
        cases fmt <;> simp
      have h3 : ∀ c ∈ ((match m with | [] => [] | _ :: _ => [0x2c]) : Bytes), c ≠ (0x22 : UInt8) ∧ c ≠ 0x5c := by
        cases m <;> simp
      have h4 : ∀ c ∈ (if fmt then [0x0a] else []), c ≠ (0x22 : UInt8) ∧ c ≠ 0x5c := by
        cases fmt <;> simp
      exact ((((((Skips.chars h1).append (.quoted hn (fun h => ht.1 h.symm))).append (.chars h2)).append
        (skips_print hn fmt j d hg.2.1 ht.2.1)).append (.chars h3)).append (.chars h4)).append
        (skips_members hn fmt m d hg.2.2 ht.2.2)
end

/-- Members before the ones of interest. -/
theorem skips_before {n : Bytes} (hn : Plain n) (fmt : Bool) (d : Nat) (m : List (Bytes × Json)) :
    ∀ bef : List (Bytes × Json), GoodM bef → n ∉ Spec.textsM bef →
    ∃ t, printMembers fmt d (bef ++ m) = t ++ printMembers fmt d m ∧ Skips n t
  | [], _, _ => ⟨[], rfl, .nil n⟩
  | (k, j) :: bef, hg, ht => by
      simp only [GoodM] at hg
      simp only [Spec.textsM, List.cons_append, List.mem_cons, List.mem_append, not_or] at ht
      obtain ⟨t, e, ht2⟩ := skips_before hn fmt d m bef hg.2.2 ht.2.2
      have h1 : ∀ c ∈ (if fmt then tabs d else []), c ≠ 0x22 ∧ c ≠ 0x5c := by
        cases fmt <;> simp [tabs]
      have h2 : ∀ c ∈ (0x3a :: (if fmt then [0x09] else [])), c ≠ (0x22 : UInt8) ∧ c ≠ 0x5c := by
        cases fmt <;> simp
      have h3 : ∀ c ∈ ((match bef ++ m with | [] => [] | _ :: _ => [0x2c]) : Bytes), c ≠ (0x22 : UInt8) ∧ c ≠ 0x5c := by
        cases bef ++ m <;> simp
      have h4 : ∀ c ∈ (if fmt then [0x0a] else []), c ≠ (0x22 : UInt8) ∧ c ≠ 0x5c := by
        cases fmt <;> simp
      have := ((((((Skips.chars h1).append (.quoted hn (fun h => ht.1 h.symm))).append (.chars h2)).append
        (skips_print hn fmt j d hg.2.1 ht.2.1)).append (.chars h3)).append (.chars h4)).append ht2
      refine ⟨_, ?_, this⟩
      rw [List.cons_append, printMembers.eq_def]
      simp only [e, List.append_assoc]
      rfl

/-- The comma before further members. -/
def comma (m : List (Bytes × Json)) : Bytes := match m with | [] => [] | _ :: _ => [0x2c]

/-- The member that is found, and what follows its name. -/
theorem find_member {n : Bytes} (hn : Plain n) (he : escape n = n) (fmt : Bool) (d : Nat) (bef rest : List (Bytes × Json))
    (j : Json) (hg : GoodM bef) (ht : n ∉ Spec.textsM bef) (s : Bytes) :
    ∃ u, (∀ x, Plain x → GoodM rest → x ∉ Spec.textsM rest → Skips x u) ∧
      ∀ p, escaped p = false → strstrLoop (pat n) p false (printMembers fmt d (bef ++ (n, j) :: rest) ++ s) =
        some (quoted n ++ ((0x3a :: (if fmt then [0x09] else [])) ++ (print fmt d j ++ (u ++ s)))) := by
  obtain ⟨t, e, hs⟩ := skips_before hn fmt d ((n, j) :: rest) bef hg ht
  have h1 : ∀ c ∈ (if fmt then tabs d else []), c ≠ 0x22 ∧ c ≠ 0x5c := by
    cases fmt <;> simp [tabs]
  refine ⟨(comma rest ++ (if fmt then [0x0a] else []) ++ printMembers fmt d rest), ?_, ?_⟩
  · intro x hx hr hxr
    have h3 : ∀ c ∈ comma rest, c ≠ (0x22 : UInt8) ∧ c ≠ 0x5c := by
      cases rest <;> simp [comma]
    have h4 : ∀ c ∈ (if fmt then [0x0a] else []), c ≠ (0x22 : UInt8) ∧ c ≠ 0x5c := by
      cases fmt <;> simp
    exact ((Skips.chars h3).append (.chars h4)).append (skips_members hx fmt rest d hr hxr)
  · intro p hp
    rw [e]
    rw [printMembers.eq_def]
    simp only [List.append_assoc]
    obtain ⟨q, hq, e2⟩ := hs p _ hp
    rw [e2]
    obtain ⟨q2, hq2, e3⟩ := Skips.chars (n := n) h1 q _ hq
    rw [e3, hit hn he]
    rfl

theorem find_none {n t : Bytes} (h : Skips n t) (p : Bytes) (hp : escaped p = false) :
    strstrLoop (pat n) p false t = none := by
  obtain ⟨q, -, e⟩ := h p [] hp
  rw [List.append_nil] at e
  rw [e]; rfl

theorem skipColon_stop {c : UInt8} (h : c = 0x7b ∨ c = 0x22 ∨ c = 0x5b) (fmt : Bool) (s : Bytes) :
    skipColon ((0x3a :: (if fmt then [0x09] else [])) ++ (c :: s)) = c :: s := by
  have hc : (c == 0x20 || c == 0x3a || c == 0x0a || c == 0x09 || c == 0x0d) = false := by
    rcases h with rfl | rfl | rfl <;> decide
  cases fmt <;> simp only [skipColon, Bool.false_eq_true, if_false, if_true, List.cons_append, List.nil_append,
    List.dropWhile_cons, hc] <;> simp

theorem lower_hex {c : UInt8} : isHexChar c = true ↔
    ((0x30 ≤ c ∧ c ≤ 0x39) ∨ (0x61 ≤ c ∧ c ≤ 0x66) ∨ (0x41 ≤ c ∧ c ≤ 0x46)) := by
  simp only [isHexChar, Bool.or_eq_true, Bool.and_eq_true, decide_eq_true_eq, or_assoc]

theorem hex_plain {c : UInt8} (h : (0x30 ≤ c ∧ c ≤ 0x39) ∨ (0x61 ≤ c ∧ c ≤ 0x66) ∨ (0x41 ≤ c ∧ c ≤ 0x46)) :
    escChar c = [c] ∧ c ≠ 0x22 ∧ c ≠ 0x5c := by
  have key : ∀ m < 256, isHexChar (UInt8.ofNat m) = true →
      escChar (UInt8.ofNat m) = [UInt8.ofNat m] ∧ UInt8.ofNat m ≠ 0x22 ∧ UInt8.ofNat m ≠ 0x5c := by decide +kernel
  have := key c.toNat (UInt8.toNat_lt c)
  simp only [UInt8.ofNat_toNat] at this
  exact this (lower_hex.2 h)

theorem escape_id {n : Bytes} (h : ∀ c ∈ n, escChar c = [c]) : escape n = n := by
  induction n with
  | nil => rfl
  | cons c n ih =>
    have hf : escape (c :: n) = escChar c ++ escape n := by simp [escape]
    rw [hf, h c (by simp), ih fun x hx => h x (List.mem_cons_of_mem _ hx)]; rfl

/-- Reading the value: exactly the keys are accepted. -/
def readKey (v : Bytes) : Res Bytes :=
  if (v.takeWhile (· != 0x22)).length ≠ 64 ∨ v.dropWhile (· != 0x22) = [] then .err .invalidKey
  else if !(v.take 64).all isHexChar then .err .invalidKey
  else .ok (lower (v.take 64))

theorem readKey_ok {w s : Bytes} (h : Spec.IsKey w) : readKey (w ++ 0x22 :: s) = .ok (lower w) := by
  have hq : ∀ c ∈ w, (c != 0x22) = true := fun c hc => by simpa using (hex_plain (h.2 c hc)).2.1
  have e1 : (w ++ 0x22 :: s).takeWhile (· != 0x22) = w := by
    rw [List.takeWhile_append_of_pos hq]; simp
  have e2 : (w ++ 0x22 :: s).dropWhile (· != 0x22) = 0x22 :: s := by
    rw [List.dropWhile_append_of_pos hq]; simp
  have e3 : (w ++ 0x22 :: s).take 64 = w := by
    rw [← h.1, List.take_left']; rfl
  have e4 : w.all isHexChar = true := by
    rw [List.all_eq_true]; exact fun c hc => lower_hex.2 (h.2 c hc)
  have e5 : ¬ (w.length ≠ 64 ∨ (0x22 :: s : Bytes) = []) := by simp [h.1]
  simp only [readKey, e1, e2, e3, e4, e5, if_false, Bool.not_true, Bool.false_eq_true]

theorem readKey_text {v k : Bytes} (h : readKey v = .ok k) :
    ∃ w s, v = w ++ 0x22 :: s ∧ Spec.IsKey w ∧ k = lower w := by
  unfold readKey at h
  split at h
  · cases h
  · split at h
    · cases h
    · rename_i h1 h2
      simp only [not_or, Decidable.not_not] at h1
      simp only [Bool.not_eq_true', Bool.not_eq_false] at h2
      have e := List.takeWhile_append_dropWhile (p := (· != 0x22)) (l := v)
      generalize hg : v.takeWhile (· != 0x22) = w at h1 e
      cases hd : v.dropWhile (· != 0x22) with
      | nil => exact absurd hd h1.2
      | cons x s =>
        have hx : x = 0x22 := by
          have := List.head?_dropWhile_not (· != (0x22 : UInt8)) v
          rw [hd] at this
          simpa using this
        subst hx
        rw [hd] at e
        have e3 : v.take 64 = w := by rw [← e, ← h1.1, List.take_left']; rfl
        rw [e3] at h h2
        simp only [Res.ok.injEq] at h
        rw [List.all_eq_true] at h2
        exact ⟨w, s, e.symm, ⟨h1.1, fun c hc => lower_hex.1 (h2 c hc)⟩, h.symm⟩

theorem key_escape {w : Bytes} (h : Spec.IsKey w) : Plain w ∧ escape w = w :=
  ⟨⟨fun c hc => (hex_plain (h.2 c hc)).2.1, fun c hc => (hex_plain (h.2 c hc)).2.2⟩,
    escape_id fun c hc => (hex_plain (h.2 c hc)).1⟩

theorem readKey_iff (v s k : Bytes) : readKey (escape v ++ 0x22 :: s) = .ok k ↔ Spec.IsKey v ∧ k = lower v := by
  constructor
  · intro h
    obtain ⟨w, s', e, hw, rfl⟩ := readKey_text h
    have hp := key_escape hw
    have := escape_plain hp.1 (body_end hp.1 v s s' e).1
    subst this
    exact ⟨hw, rfl⟩
  · rintro ⟨h, rfl⟩
    rw [(key_escape h).2]
    exact readKey_ok h

theorem keyOf_eq (json name : Bytes) (h1 : json.length ≤ 1048576) (h2 : 1 ≤ name.length) (h3 : name.length ≤ 64)
    (hp : Plain name) : keyOf json name =
    match strstr json (pat (c!"names")) with
    | none => .err .notFound
    | some p => match skipColon (p.drop 7) with
        | 0x7b :: q =>
            match strstr (0x7b :: q) (pat name) with
            | none => .err .notFound
            | some r => match skipColon (r.drop (name.length + 2)) with
                | 0x22 :: v => readKey v
                | _ => .err .jsonParse
        | _ => .err .jsonParse := by
  have g1 : ¬ json.length > 1048576 := by omega
  have g2 : ¬ (name.length = 0 ∨ name.length > 64) := by omega
  have g3 : ¬ ((name.any fun c => c == 0x22 || c == 0x5c) = true) := by
    simp only [List.any_eq_true, Bool.or_eq_true, beq_iff_eq]
    rintro ⟨c, hc, e⟩
    rcases e with e | e
    · exact hp.quote c hc e
    · exact hp.slash c hc e
  unfold keyOf readKey
  simp only [g1, g2, g3, if_false]
  rfl

theorem local_plain {n : Bytes} (h : Spec.LocalPart n) : Plain n ∧ escape n = n := by
  have key : ∀ m < 256, (Spec.IsAlnum (UInt8.ofNat m) ∨ UInt8.ofNat m = 0x2d ∨ UInt8.ofNat m = 0x5f ∨ UInt8.ofNat m = 0x2e) →
      escChar (UInt8.ofNat m) = [UInt8.ofNat m] ∧ UInt8.ofNat m ≠ 0x22 ∧ UInt8.ofNat m ≠ 0x5c := by decide +kernel
  have g : ∀ c ∈ n, escChar c = [c] ∧ c ≠ 0x22 ∧ c ≠ 0x5c := by
    intro c hc
    have := key c.toNat (UInt8.toNat_lt c)
    simp only [UInt8.ofNat_toNat] at this
    exact this (h.2.2 c hc)
  exact ⟨⟨fun c hc => (g c hc).2.1, fun c hc => (g c hc).2.2⟩, escape_id fun c hc => (g c hc).1⟩

/-- Strings of a table. -/
theorem mem_table (n : Bytes) (ns : List (Bytes × Bytes)) :
    n ∈ Spec.textsM (ns.map fun p => (p.1, Json.str p.2)) ↔ ∃ p ∈ ns, n = p.1 ∨ n = p.2 := by
  induction ns with
  | nil => simp [Spec.textsM]
  | cons p ns ih =>
    simp only [List.map_cons, Spec.textsM, Spec.texts, List.cons_append, List.nil_append, List.mem_cons, ih]
    constructor
    · rintro (h | h | ⟨q, hq, h⟩)
      · exact ⟨p, .inl rfl, .inl h⟩
      · exact ⟨p, .inl rfl, .inr h⟩
      · exact ⟨q, .inr hq, h⟩
    · rintro ⟨q, rfl | hq, h⟩
      · rcases h with h | h
        · exact .inl h
        · exact .inr (.inl h)
      · exact .inr (.inr ⟨q, hq, h⟩)

theorem good_table {ns : List (Bytes × Bytes)} (h : ∀ p ∈ ns, CStr p.1 ∧ CStr p.2) :
    GoodM (ns.map fun p => (p.1, Json.str p.2)) := by
  induction ns with
  | nil => simp [GoodM]
  | cons p ns ih =>
    simp only [List.map_cons, GoodM, Good]
    exact ⟨(h p (by simp)).1, (h p (by simp)).2, ih fun q hq => h q (List.mem_cons_of_mem _ hq)⟩


/-- The braces around members. -/
theorem obj_text (fmt : Bool) (d : Nat) (m : List (Bytes × Json)) : ∃ a b, (∀ c ∈ a, c ≠ 0x22 ∧ c ≠ 0x5c) ∧
    (∀ c ∈ b, c ≠ 0x22 ∧ c ≠ 0x5c) ∧ print fmt d (.obj m) = 0x7b :: a ++ printMembers fmt (d + 1) m ++ b := by
  refine ⟨if fmt then [0x0a] else [], (if fmt then tabs d else []) ++ [0x7d], ?_, ?_, ?_⟩
  · cases fmt <;> simp
  · cases fmt <;> simp [tabs]
    rintro c (⟨-, rfl⟩ | rfl) <;> decide
  · rw [print]; simp [List.append_assoc]

/-- Searching an object for a member whose name is not mentioned before. -/
theorem find_obj {n : Bytes} (hn : Plain n) (he : escape n = n) (fmt : Bool) (d : Nat) (bef rest : List (Bytes × Json))
    (j : Json) (hg : GoodM bef) (ht : n ∉ Spec.textsM bef) (s : Bytes) :
    ∃ u, (∀ x, Plain x → GoodM rest → x ∉ Spec.textsM rest → Skips x u) ∧
      strstr (print fmt d (.obj (bef ++ (n, j) :: rest)) ++ s) (pat n) =
        some (quoted n ++ ((0x3a :: (if fmt then [0x09] else [])) ++ (print fmt (d + 1) j ++ (u ++ s)))) := by
  obtain ⟨a, b, ha, hb, e⟩ := obj_text fmt d (bef ++ (n, j) :: rest)
  obtain ⟨u, hu, h⟩ := find_member hn he fmt (d + 1) bef rest j hg ht (b ++ s)
  refine ⟨u ++ b, fun x hx h1 h2 => (hu x hx h1 h2).append (.chars hb), ?_⟩
  have h3 : ∀ c ∈ (0x7b :: a), c ≠ 0x22 ∧ c ≠ 0x5c := by
    intro c hc
    rcases List.mem_cons.1 hc with rfl | hc
    · decide
    · exact ha c hc
  obtain ⟨q, hq, e2⟩ := Skips.chars (n := n) h3 [] (printMembers fmt (d + 1) (bef ++ (n, j) :: rest) ++ (b ++ s)) rfl
  rw [e, strstr]
  have e3 : 0x7b :: a ++ printMembers fmt (d + 1) (bef ++ (n, j) :: rest) ++ b ++ s =
      (0x7b :: a) ++ (printMembers fmt (d + 1) (bef ++ (n, j) :: rest) ++ (b ++ s)) := by simp
  rw [e3, e2, h q hq]
  simp only [List.append_assoc]

theorem obj_head (fmt : Bool) (d : Nat) (m : List (Bytes × Json)) : ∃ t, print fmt d (.obj m) = 0x7b :: t := by
  rw [print]; simp only [List.cons_append]; exact ⟨_, rfl⟩

theorem drop_quoted {n : Bytes} (he : escape n = n) (s : Bytes) : (quoted n ++ s).drop (n.length + 2) = s := by
  have : (quoted n).length = n.length + 2 := by simp [quoted, he]
  rw [← this, List.drop_left]

theorem names_plain : Plain (c!"names") ∧ escape (c!"names") = c!"names" :=
  ⟨⟨by decide, by decide⟩, by decide⟩

/-- A document with a table of names: the key that is read. -/
theorem keyOf_doc (fmt : Bool) (bef rest : List (Bytes × Json)) (ns : List (Bytes × Bytes)) (n : Bytes)
    (hn : Spec.LocalPart n) (hb : GoodM bef) (hr : GoodM rest) (hns : ∀ p ∈ ns, CStr p.1 ∧ CStr p.2)
    (h1 : c!"names" ∉ Spec.textsM bef) (h2 : ∀ p ∈ ns, p.2 ≠ n)
    (h3 : n ∉ Spec.textsM rest)
    (hl : (print fmt 0 (.obj (bef ++ (c!"names", Spec.table ns) :: rest))).length ≤ 1048576) (k : Bytes) :
    keyOf (print fmt 0 (.obj (bef ++ (c!"names", Spec.table ns) :: rest))) n = .ok k ↔
      ∃ v, ns.lookup n = some v ∧ Spec.IsKey v ∧ k = lower v := by
  obtain ⟨hp, he⟩ := local_plain hn
  rw [keyOf_eq _ _ hl hn.1 hn.2.1 hp]
  obtain ⟨u, hu, e⟩ := find_obj names_plain.1 names_plain.2 fmt 0 bef rest (Spec.table ns) hb h1 []
  rw [List.append_nil] at e
  rw [e]
  simp only
  have d7 : (quoted (c!"names") ++ ((0x3a :: (if fmt then [0x09] else [])) ++ (print fmt (0 + 1) (Spec.table ns) ++ (u ++ [])))).drop 7 =
      (0x3a :: (if fmt then [0x09] else [])) ++ (print fmt (0 + 1) (Spec.table ns) ++ (u ++ [])) := drop_quoted names_plain.2 _
  rw [d7]
  obtain ⟨t, et⟩ := obj_head fmt (0 + 1) (ns.map fun p => (p.1, Json.str p.2))
  have et' : print fmt (0 + 1) (Spec.table ns) = 0x7b :: t := et
  rw [et', show (0x7b :: t ++ (u ++ []) : Bytes) = 0x7b :: (t ++ (u ++ [])) from rfl, skipColon_stop (.inl rfl)]
  simp only
  rw [show (0x7b :: (t ++ (u ++ [])) : Bytes) = 0x7b :: t ++ (u ++ []) from rfl, ← et']
  cases hlook : ns.lookup n with
  | some v =>
    obtain ⟨ns1, ns2, rfl, hno⟩ : ∃ a b, ns = a ++ (n, v) :: b ∧ ∀ p ∈ a, p.1 ≠ n := by
      obtain ⟨a, b, h, h'⟩ := List.lookup_eq_some_iff.1 hlook
      exact ⟨a, b, h, fun p hp h => by simpa [h] using h' p hp⟩
    have hnt : n ∉ Spec.textsM (ns1.map fun p => (p.1, Json.str p.2)) := by
      rw [mem_table]
      rintro ⟨p, hp, e | e⟩
      · exact hno p hp e.symm
      · exact h2 p (by simp [hp]) e.symm
    have hgt := good_table (ns := ns1) fun p hp => hns p (by simp [hp])
    obtain ⟨w, -, e2⟩ := find_obj hp he fmt (0 + 1) (ns1.map fun p => (p.1, Json.str p.2))
      (ns2.map fun p => (p.1, Json.str p.2)) (.str v) hgt hnt (u ++ [])
    have etab : Spec.table (ns1 ++ (n, v) :: ns2) = .obj ((ns1.map fun p => (p.1, Json.str p.2)) ++
        (n, .str v) :: (ns2.map fun p => (p.1, Json.str p.2))) := by simp [Spec.table]
    rw [etab, e2]
    simp only
    rw [drop_quoted he, print]
    have e4 : quoted v ++ (w ++ (u ++ [])) = 0x22 :: (escape v ++ 0x22 :: (w ++ (u ++ []))) := by simp [quoted]
    rw [e4, skipColon_stop (.inr (.inl rfl))]
    simp only [readKey_iff, Option.some.injEq]
    constructor
    · rintro ⟨a, b⟩; exact ⟨v, rfl, a, b⟩
    · rintro ⟨x, rfl, a, b⟩; exact ⟨a, b⟩
  | none =>
    have hno : ∀ p ∈ ns, p.1 ≠ n := by
      intro p hp h
      have := List.lookup_eq_none_iff.1 hlook p hp
      simp [h] at this
    have hnt : n ∉ Spec.textsM (ns.map fun p => (p.1, Json.str p.2)) := by
      rw [mem_table]
      rintro ⟨p, hp, e | e⟩
      · exact hno p hp e.symm
      · exact h2 p hp e.symm
    have hs : Skips n (print fmt (0 + 1) (Spec.table ns) ++ (u ++ [])) :=
      (skips_print hp fmt _ _ (by simpa [Spec.table, Good] using good_table hns) (by simpa [Spec.table, Spec.texts] using hnt)).append
        (by rw [List.append_nil]; exact hu n hp hr h3)
    rw [strstr, find_none hs [] rfl]
    simp

theorem lower_len {a b : Bytes} (ha : a.length = 64) (hb : b.length = 64) :
    Hex.ctMemcmp (lower a) (lower b) = 0 ↔ Spec.lowerCase a = Spec.lowerCase b := by
  rw [Hex.ctMemcmp_iff (by simp [lower, ha, hb])]
  rfl

/-- What a successful search has passed. -/
theorem strstr_some {needle : Bytes} : ∀ (s p : Bytes) (i : Bool) (r : Bytes), strstrLoop needle p i s = some r →
    ∃ a, s = a ++ r ∧ r.take needle.length = needle
  | [], _, _, _, h => by simp [strstrLoop] at h
  | c :: s, p, i, r, h => by
      rw [strstrLoop] at h
      split at h
      · rename_i h1
        simp only [Option.some.injEq] at h
        subst h
        exact ⟨[], rfl, h1.2⟩
      · obtain ⟨a, e, h2⟩ := strstr_some s _ _ r h
        exact ⟨c :: a, by rw [e]; rfl, h2⟩

/-- Separators skipped between a name and its value. -/
def Sep (w : Bytes) : Prop := ∀ c ∈ w, c = 0x20 ∨ c = 0x3a ∨ c = 0x0a ∨ c = 0x09 ∨ c = 0x0d

theorem skipColon_split (s : Bytes) : ∃ w, Sep w ∧ s = w ++ skipColon s := by
  refine ⟨s.takeWhile fun c => c == 0x20 || c == 0x3a || c == 0x0a || c == 0x09 || c == 0x0d, ?_, ?_⟩
  · intro c hc
    have : ∀ (l : Bytes), c ∈ l.takeWhile (fun c => c == 0x20 || c == 0x3a || c == 0x0a || c == 0x09 || c == 0x0d) →
        (c == 0x20 || c == 0x3a || c == 0x0a || c == 0x09 || c == 0x0d) = true := by
      intro l
      induction l with
      | nil => simp
      | cons a l ih =>
        rw [List.takeWhile_cons]
        split
        · rename_i h; intro hc
          rcases List.mem_cons.1 hc with rfl | hc
          · exact h
          · exact ih hc
        · simp
    simpa [or_assoc] using this s hc
  · exact (List.takeWhile_append_dropWhile).symm

namespace Props

/-- C58, what holds for every document: success means that the document contains, in this order, the string `"names"`
followed by an object, the requested name as a string, and behind separators a string of 64 hex digits that is the
expected key up to case.  Missing: that the name is a member of the names object; see the refutation. -/
theorem C58_sound_partial (http : Bytes → Res (Option (Bytes × Nat))) (identifier expected : Bytes) (want : Bool) (rs : List Bytes)
    (h : verify http identifier expected want = .ok rs) :
    ∃ name domain doc len, parse identifier 65 257 = .ok (name, domain) ∧
      http (Spec.wellKnown name domain) = .ok (some (doc, len)) ∧
      ∃ a w1 b w2 key c, doc = a ++ c!"\"names\"" ++ w1 ++ c!"{" ++ b ++ c!"\"" ++ name ++ c!"\"" ++ w2 ++ c!"\"" ++ key ++ c!"\"" ++ c ∧
        (∀ x ∈ w1 ++ w2, x = 0x20 ∨ x = 0x3a ∨ x = 0x0a ∨ x = 0x09 ∨ x = 0x0d) ∧
        Spec.IsKey key ∧ expected.length = 64 ∧ Spec.lowerCase key = Spec.lowerCase expected := by
  unfold verify at h
  obtain ⟨⟨name, domain⟩, h1, h⟩ := Res.bind_eq_ok.1 h
  have hh := (C57_host identifier name domain h1).1
  simp only at h
  rw [hh, Res.bind_ok] at h
  obtain ⟨r, h2, h⟩ := Res.bind_eq_ok.1 h
  cases r with
  | none => simp at h
  | some dl =>
    obtain ⟨doc, len⟩ := dl
    simp only at h
    split at h
    · cases h
    split at h
    · cases h
    obtain ⟨⟨k, rl⟩, h3, h⟩ := Res.bind_eq_ok.1 h
    simp only at h
    split at h
    · cases h
    rename_i hlen
    split at h
    · cases h
    rename_i hcmp
    have hk : keyOf doc name = .ok k := by
      unfold parseResponse at h3
      obtain ⟨k', hk, h3⟩ := Res.bind_eq_ok.1 h3
      cases want
      · simp at h3; rw [hk, h3.1]
      · simp only [if_true] at h3
        obtain ⟨x, -, h3⟩ := Res.bind_eq_ok.1 h3
        simp at h3; rw [hk, h3.1]
    refine ⟨name, domain, doc, len, h1, h2, ?_⟩
    obtain ⟨_, _, _, hl, _, _, _, rfl, _⟩ := (C57_parse identifier 65 257 (by omega) (by omega) name domain).1 h1
    have hn := local_lower hl
    generalize Spec.lowerCase _ = name at hk hn ⊢
    have hsize : doc.length ≤ 1048576 := by
      unfold keyOf at hk
      split at hk
      · cases hk
      · omega
    rw [keyOf_eq _ _ hsize hn.1 hn.2.1 (local_plain hn).1] at hk
    cases s1 : strstr doc (pat (c!"names")) with
    | none => simp [s1] at hk
    | some p =>
      rw [s1] at hk
      simp only at hk
      obtain ⟨a, ea, ha⟩ := strstr_some _ _ _ _ s1
      obtain ⟨w1, hw1, e1⟩ := skipColon_split (p.drop 7)
      split at hk
      · rename_i q hq
        rw [hq] at e1
        cases s2 : strstr (0x7b :: q) (pat name) with
        | none => simp [s2] at hk
        | some r =>
          rw [s2] at hk
          simp only at hk
          obtain ⟨b, eb, hb⟩ := strstr_some _ _ _ _ s2
          obtain ⟨w2, hw2, e2⟩ := skipColon_split (r.drop (name.length + 2))
          split at hk
          · rename_i v hv
            rw [hv] at e2
            obtain ⟨key, c, ev, hkey, rfl⟩ := readKey_text hk
            have ep : p = pat (c!"names") ++ p.drop 7 := by
              have := List.take_append_drop 7 p
              rw [← this]
              have h7 : p.take 7 = pat (c!"names") := ha
              rw [h7]
              simp [pat]
            have er : r = pat name ++ r.drop (name.length + 2) := by
              have hlenp : (pat name).length = name.length + 2 := by simp [pat]
              rw [hlenp] at hb
              conv => lhs; rw [← List.take_append_drop (name.length + 2) r, hb]
            have hbne : ∃ b', b = 0x7b :: b' := by
              cases b with
              | nil =>
                rw [List.nil_append] at eb
                rw [← eb] at er
                simp [pat] at er
              | cons x b' =>
                simp only [List.cons_append, List.cons.injEq] at eb
                exact ⟨b', by rw [eb.1]⟩
            obtain ⟨b', rfl⟩ := hbne
            refine ⟨a, w1, b', w2, key, c, ?_, ?_, hkey, by omega, ?_⟩
            · rw [ea, ep, e1, eb, er, e2, ev]
              simp [pat]
            · intro x hx
              rcases List.mem_append.1 hx with hx | hx
              · exact hw1 x hx
              · exact hw2 x hx
            · exact (lower_len hkey.1 (by omega)).1 (by simpa using hcmp)
          · cases hk
      · cases hk

/-- A document whose table of names is empty. -/
def elsewhere : Bytes :=
  c!"{\"names\":{},\"old\":{\"bob\":\"b0635d6a9851d3aed0cd6c495b282167acf761729078d975fc341b22650b07b9\"}}"

/-- C58 fails: the name is also found outside the names object.  Here the document is well-formed JSON, its names
object is empty, and the verification succeeds. -/
theorem C58_outside_refuted :
    (∃ tree, Json.parse elsewhere = some tree ∧ Spec.keyFor tree (c!"bob") = none) ∧
    verify (fun _ => .ok (some (elsewhere, elsewhere.length))) (c!"bob@example.com")
      (c!"b0635d6a9851d3aed0cd6c495b282167acf761729078d975fc341b22650b07b9") true = .ok [] := by
  refine ⟨⟨.obj [(c!"names", .obj []), (c!"old", .obj [(c!"bob",
    .str (c!"b0635d6a9851d3aed0cd6c495b282167acf761729078d975fc341b22650b07b9"))])], ?_, ?_⟩, ?_⟩ <;> decide +kernel

/-- A document in which the first `"names"` is the one of a nested object. -/
def nested : Bytes :=
  c!"{\"old\":{\"names\":{\"bob\":\"b0635d6a9851d3aed0cd6c495b282167acf761729078d975fc341b22650b07b9\"}},\"names\":{\"bob\":\"0000000000000000000000000000000000000000000000000000000000000001\"}}"

/-- C58 fails: a nested object called `names` hides the one of the document. -/
theorem C58_nested_refuted :
    (∃ tree, Json.parse nested = some tree ∧
      Spec.keyFor tree (c!"bob") = some (.str (c!"0000000000000000000000000000000000000000000000000000000000000001"))) ∧
    verify (fun _ => .ok (some (nested, nested.length))) (c!"bob@example.com")
      (c!"b0635d6a9851d3aed0cd6c495b282167acf761729078d975fc341b22650b07b9") true = .ok [] ∧
    verify (fun _ => .ok (some (nested, nested.length))) (c!"bob@example.com")
      (c!"0000000000000000000000000000000000000000000000000000000000000001") true = .err .invalidKey := by
  refine ⟨⟨.obj [(c!"old", .obj [(c!"names", .obj [(c!"bob",
    .str (c!"b0635d6a9851d3aed0cd6c495b282167acf761729078d975fc341b22650b07b9"))])]), (c!"names", .obj [(c!"bob",
    .str (c!"0000000000000000000000000000000000000000000000000000000000000001"))])], ?_, ?_⟩, ?_, ?_⟩ <;> decide +kernel

/-- C58, documents as they are served: a JSON object, compact or indented, whose names object maps strings to strings.
If `names` is not mentioned before it and the requested name not among its values or behind it, verification succeeds
exactly when the names object maps the name to the expected key.  (Relays are not asked for: a list of more than 100
relays makes the call fail.) -/
theorem C58_documents_partial (fmt : Bool) (bef rest : List (Bytes × Json)) (ns : List (Bytes × Bytes))
    (http : Bytes → Res (Option (Bytes × Nat))) (identifier expected name domain : Bytes)
    (hb : GoodM bef) (hr : GoodM rest) (hns : ∀ p ∈ ns, CStr p.1 ∧ CStr p.2)
    (h1 : c!"names" ∉ Spec.textsM bef) (h2 : ∀ p ∈ ns, p.2 ≠ name) (h3 : name ∉ Spec.textsM rest)
    (hp : parse identifier 65 257 = .ok (name, domain))
    (hdoc : ∃ len, 0 < len ∧ len ≤ 1048576 ∧ http (Spec.wellKnown name domain) =
      .ok (some (print fmt 0 (.obj (bef ++ (c!"names", Spec.table ns) :: rest)), len)))
    (hl : (print fmt 0 (.obj (bef ++ (c!"names", Spec.table ns) :: rest))).length ≤ 1048576) :
    verify http identifier expected false = .ok [] ↔
      ∃ key, ns.lookup name = some key ∧ Spec.IsKey key ∧ expected.length = 64 ∧
        Spec.lowerCase key = Spec.lowerCase expected := by
  obtain ⟨len, hl0, hl1, hhttp⟩ := hdoc
  have hh := (C57_host identifier name domain hp).1
  obtain ⟨a, _, _, hloc, _, _, _, hna, _⟩ := (C57_parse identifier 65 257 (by omega) (by omega) name domain).1 hp
  have hn : Spec.LocalPart name := by rw [hna]; exact local_lower hloc
  have key := keyOf_doc fmt bef rest ns name hn hb hr hns h1 h2 h3 hl
  have g1 : ¬ len = 0 := by omega
  have g2 : ¬ len > 1048576 := by omega
  unfold verify
  simp only [hp, Res.bind_ok, hh, hhttp, g1, g2, if_false, parseResponse, Bool.false_eq_true]
  constructor
  · intro h
    obtain ⟨kr, hk1, h⟩ := Res.bind_eq_ok.1 h
    obtain ⟨k, hk, hkr⟩ := Res.bind_eq_ok.1 hk1
    simp only [Res.ok.injEq] at hkr
    subst hkr
    split at h
    · cases h
    split at h
    · cases h
    rename_i ha hb
    obtain ⟨v, hv1, hv2, rfl⟩ := (key k).1 hk
    exact ⟨v, hv1, hv2, by omega, (lower_len hv2.1 (by omega)).1 (by simpa using hb)⟩
  · rintro ⟨v, hv1, hv2, hv3, hv4⟩
    rw [(key (lower v)).2 ⟨v, hv1, hv2, rfl⟩]
    have g3 : ¬ expected.length ≠ 64 := by omega
    have g4 : ¬ Hex.ctMemcmp (lower v) (lower expected) ≠ 0 := by
      simpa using (lower_len hv2.1 hv3).2 hv4
    simp only [Res.bind_ok, g3, g4, if_false]

example : verify (fun _ => .ok (some (print true 0 (.obj [(c!"domain", .str (c!"example.com")), (c!"names", Spec.table
      [(c!"a\"b", c!"x"), (c!"bob", c!"b0635d6a9851d3aed0cd6c495b282167acf761729078d975fc341b22650b07b9")])]), 1)))
    (c!"bob@example.com") (c!"b0635d6a9851d3aed0cd6c495b282167acf761729078d975fc341b22650b07b9") false = .ok [] := by
  decide +kernel

/-- A document in which another entry has the requested name as its value. -/
def shadowed : Bytes :=
  c!"{\"names\":{\"x\":\"bob\",\"bob\":\"b0635d6a9851d3aed0cd6c495b282167acf761729078d975fc341b22650b07b9\"}}"

/-- The condition on values is needed: such a document is rejected although it maps the name to the key. -/
theorem C58_value_refuted :
    (∃ tree, Json.parse shadowed = some tree ∧ Spec.keyFor tree (c!"bob") =
      some (.str (c!"b0635d6a9851d3aed0cd6c495b282167acf761729078d975fc341b22650b07b9"))) ∧
    verify (fun _ => .ok (some (shadowed, shadowed.length))) (c!"bob@example.com")
      (c!"b0635d6a9851d3aed0cd6c495b282167acf761729078d975fc341b22650b07b9") true = .err .jsonParse := by
  refine ⟨⟨.obj [(c!"names", .obj [(c!"x", .str (c!"bob")), (c!"bob",
    .str (c!"b0635d6a9851d3aed0cd6c495b282167acf761729078d975fc341b22650b07b9"))])], ?_, ?_⟩, ?_⟩ <;> decide +kernel

end Props
end Nostr.Nip05
