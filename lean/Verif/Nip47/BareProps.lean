import Verif.Nip47.Bare
import Verif.Nip47.Params
import Verif.Zap.Props

/-!
# Property theorems: C193 (a wallet's answers in the build without cJSON)
-/

namespace Nostr.Nip47.Bare
open Nostr Nostr.Nip47 Nostr.Json Nostr.Event Nostr.Zap

/-! ## Specification -/

/-- The text of a name as it is searched for: in quotation marks, and a colon. -/
def mark (name : Bytes) : Bytes := 0x22 :: name ++ [0x22, 0x3a]

/-- Names of small letters and underscores. -/
def Name (n : Bytes) : Prop := n ≠ [] ∧ ∀ c ∈ n, 0x5f ≤ c ∧ c ≤ 0x7a

instance (n : Bytes) : Decidable (Name n) := inferInstanceAs (Decidable (_ ∧ _))

/-- A key that is not the name and does not end in a quotation mark and the name. -/
def Other (n k : Bytes) : Prop := k ≠ n ∧ ¬ (0x22 :: n) <:+ k

mutual
/-- No object in the tree has such a key; numbers are made of characters of numbers. -/
def Quiet (n : Bytes) : Json → Prop
  | .num t => ∀ c ∈ t, isNumChar c = true
  | .arr l => QuietL n l
  | .obj m => QuietM n m
  | _ => True
/-- `Quiet` for all elements. -/
def QuietL (n : Bytes) : List Json → Prop
  | [] => True
  | j :: l => Quiet n j ∧ QuietL n l
/-- `Quiet` for all members. -/
def QuietM (n : Bytes) : List (Bytes × Json) → Prop
  | [] => True
  | (k, j) :: l => Other n k ∧ Quiet n j ∧ QuietM n l
end

/-! ## Where the searched text does not start -/

/-- `N` does not start inside `s` when `s` is followed by `k`. -/
def NoStart (N s k : Bytes) : Prop := ∀ a b, s = a ++ b → b ≠ [] → ¬ N <+: b ++ k

theorem NoStart.nil (N k : Bytes) : NoStart N [] k := by
  intro a b h hb
  exact absurd (List.append_eq_nil_iff.1 h.symm).2 hb

theorem NoStart.app {N s1 s2 k : Bytes} (h1 : NoStart N s1 (s2 ++ k)) (h2 : NoStart N s2 k) : NoStart N (s1 ++ s2) k := by
  intro a b h hb
  rcases List.append_eq_append_iff.1 h with ⟨c, rfl, hc⟩ | ⟨c, hc, rfl⟩
  · exact h2 c b hc hb
  · by_cases e : c = []
    · subst e
      exact h2 [] s2 rfl (by simpa using hb)
    · have := h1 a c hc e
      rwa [← List.append_assoc] at this

theorem NoStart.plain {N' s k : Bytes} (h : ∀ c ∈ s, c ≠ 0x22) : NoStart (0x22 :: N') s k := by
  intro a b e hb ⟨r, hr⟩
  cases b with
  | nil => exact hb rfl
  | cons c b =>
    simp only [List.cons_append, List.cons.injEq] at hr
    exact h c (by rw [e]; simp) hr.1.symm

theorem NoStart.find {N s k : Bytes} (h : NoStart N s k) : strstr N (s ++ k) = strstr N k := by
  induction s with
  | nil => rfl
  | cons c s ih =>
    have h0 := h [] (c :: s) rfl (by simp)
    rw [List.cons_append, strstr, if_neg, ih]
    · intro a b e hb
      exact h (c :: a) b (by rw [e]; rfl) hb
    · intro e
      exact h0 ⟨(c :: (s ++ k)).drop N.length, by rw [List.cons_append]; conv => rhs; rw [← List.take_append_drop N.length (c :: (s ++ k))]; rw [e]⟩

/-- A longer text does not start where its beginning does not. -/
theorem NoStart.longer {N N' s k : Bytes} (h : NoStart N s k) : NoStart (N ++ N') s k := by
  intro a b e hb ⟨r, hr⟩
  exact h a b e hb ⟨N' ++ r, by rw [← hr]; simp⟩

theorem esc_quote (c : UInt8) (hc : c ≠ 0x22) : ∀ x ∈ escChar c, x ≠ 0x22 := by
  have h : ∀ i : Fin 256, UInt8.ofNat i.val ≠ 0x22 → (escChar (UInt8.ofNat i.val)).all (· != 0x22) = true := by decide +kernel
  have := h ⟨c.toNat, c.toNat_lt⟩ (by simpa using hc)
  simp only [UInt8.ofNat_toNat, List.all_eq_true, bne_iff_ne] at this
  exact this

/-- Only the name itself is written like the name. -/
theorem core {nm : Bytes} (hn : ∀ c ∈ nm, (0x5f : UInt8) ≤ c ∧ c ≤ 0x7a) : ∀ {v k r : Bytes},
    nm ++ 0x22 :: 0x3a :: r = escape v ++ 0x22 :: k → v = nm ∧ k = 0x3a :: r := by
  induction nm with
  | nil =>
    intro v k r h
    cases v with
    | nil => simpa [escape] using h.symm
    | cons c v =>
      exfalso
      have : escape (c :: v) = escChar c ++ escape v := by simp [escape]
      rw [this] at h
      by_cases hc : c = 0x22
      · subst hc
        simp [escChar] at h
      · have hh := esc_quote c hc
        cases he : escChar c with
        | nil =>
          revert he
          unfold escChar
          repeat' split
          all_goals simp
        | cons x xs =>
          rw [he] at h
          simp only [List.nil_append, List.cons_append, List.cons.injEq] at h
          exact hh x (by rw [he]; simp) h.1.symm
  | cons x nm ih =>
    intro v k r h
    have hx := hn x (by simp)
    cases v with
    | nil =>
      simp only [escape, List.flatMap_nil, List.nil_append, List.cons_append, List.cons.injEq] at h
      rw [h.1] at hx
      exact absurd hx.1 (by decide)
    | cons c v =>
      have e : escape (c :: v) = escChar c ++ escape v := by simp [escape]
      rw [e] at h
      have hs : escChar c = [c] ∨ ∃ t, escChar c = 0x5c :: t := by
        unfold escChar
        repeat' split
        all_goals simp
      rcases hs with hs | ⟨t, hs⟩
      · rw [hs] at h
        simp only [List.cons_append, List.nil_append, List.cons.injEq] at h
        obtain ⟨h1, h2⟩ := ih (fun c hc => hn c (by simp [hc])) h.2
        exact ⟨by rw [h1, h.1], h2⟩
      · rw [hs] at h
        simp only [List.cons_append, List.cons.injEq] at h
        rw [h.1] at hx
        exact absurd hx.1 (by decide)

/-- What may follow a text in quotation marks does not begin like a name. -/
def Ends (k : Bytes) : Prop := ∀ c, k.head? = some c → c = 0x2c ∨ c = 0x3a ∨ c = 0x5d ∨ c = 0x7d ∨ c = 0x0a

theorem body {nm : Bytes} (hn : Name nm) : ∀ {v k : Bytes}, Ends k → (k.head? = some 0x3a → ¬ (0x22 :: nm) <:+ v) →
    NoStart (mark nm) (escape v ++ [0x22]) k := by
  intro v
  induction v with
  | nil =>
    intro k hk _ a b h hb
    have hb' : b = [0x22] := by
      cases a with
      | nil => simpa [escape] using h.symm
      | cons c a =>
        exfalso
        simp only [escape, List.flatMap_nil, List.nil_append, List.cons_append, List.cons.injEq] at h
        exact hb (List.append_eq_nil_iff.1 h.2.symm).2
    subst hb'
    rintro ⟨r, hr⟩
    cases nm with
    | nil => exact hn.1 rfl
    | cons x nm =>
      simp only [mark, List.cons_append, List.nil_append, List.cons.injEq, true_and] at hr
      have hx := hn.2 x (by simp)
      rcases hk x (by rw [← hr]; rfl) with e | e | e | e | e <;> (rw [e] at hx; revert hx; decide)
  | cons c v ih =>
    intro k hk hv
    have e : escape (c :: v) ++ [0x22] = escChar c ++ (escape v ++ [0x22]) := by simp [escape]
    rw [e]
    refine NoStart.app ?_ (ih hk fun h hs => hv h (hs.trans (List.suffix_cons c v)))
    by_cases hc : c = 0x22
    · subst hc
      have e2 : escChar 0x22 = [0x5c] ++ [0x22] := by decide
      rw [e2]
      refine NoStart.app (NoStart.plain (by simp)) ?_
      intro a b h hb
      have hb' : b = [0x22] := by
        cases a with
        | nil => simpa using h.symm
        | cons x a =>
          exfalso
          simp only [List.cons_append, List.cons.injEq] at h
          exact hb (List.append_eq_nil_iff.1 h.2.symm).2
      subst hb'
      rintro ⟨r, hr⟩
      simp only [mark, List.cons_append, List.nil_append, List.append_assoc, List.cons.injEq, true_and] at hr
      obtain ⟨h1, h2⟩ := core hn.2 hr
      exact hv (by rw [h2]; rfl) (by rw [h1]; exact List.suffix_refl _)
    · exact NoStart.plain (esc_quote c hc)

/-- In a text in quotation marks the name is not found, unless the text is a key that is the name or ends like it. -/
theorem quoted_silent {nm v k : Bytes} (hn : Name nm) (hk : Ends k) (hv : k.head? = some 0x3a → Other nm v) : NoStart (mark nm) (quoted v) k := by
  have e : quoted v = [0x22] ++ (escape v ++ [0x22]) := rfl
  rw [e]
  refine NoStart.app ?_ (body hn hk fun h => (hv h).2)
  intro a b h hb
  have hb' : b = [0x22] := by
    cases a with
    | nil => simpa using h.symm
    | cons x a =>
      exfalso
      simp only [List.cons_append, List.cons.injEq] at h
      exact hb (List.append_eq_nil_iff.1 h.2.symm).2
  subst hb'
  rintro ⟨r, hr⟩
  simp only [mark, List.cons_append, List.nil_append, List.append_assoc, List.cons.injEq, true_and] at hr
  obtain ⟨h1, h2⟩ := core hn.2 hr
  exact (hv (by rw [h2]; rfl)).1 h1

theorem num_silent {N' t k : Bytes} (h : ∀ c ∈ t, isNumChar c = true) : NoStart (0x22 :: N') t k :=
  NoStart.plain fun c hc e => by have := h c hc; rw [e] at this; revert this; decide

/-- What may follow a value. -/
def After (k : Bytes) : Prop := ∀ c, k.head? = some c → c = 0x2c ∨ c = 0x5d ∨ c = 0x7d ∨ c = 0x0a

theorem After.ends {k : Bytes} (h : After k) : Ends k := fun c hc => by rcases h c hc with e | e | e | e <;> simp [e]

theorem After.cons {c : UInt8} {k : Bytes} (h : c = 0x2c ∨ c = 0x5d ∨ c = 0x7d ∨ c = 0x0a) : After (c :: k) := by
  intro x hx
  simp only [List.head?_cons, Option.some.injEq] at hx
  rw [← hx]
  exact h

theorem tabs_plain (n : Nat) : ∀ c ∈ tabs n, c ≠ 0x22 := by
  intro c hc
  rw [tabs, List.mem_replicate] at hc
  rw [hc.2]
  decide

mutual
theorem print_silent {nm : Bytes} (hn : Name nm) (fmt : Bool) : ∀ (j : Json) (d : Nat) {k : Bytes}, Quiet nm j → After k →
    NoStart (mark nm) (print fmt d j) k
  | .null, d, k, _, _ => NoStart.plain (by simp [print])
  | .tru, d, k, _, _ => NoStart.plain (by simp [print])
  | .fls, d, k, _, _ => NoStart.plain (by simp [print])
  | .num t, d, k, hq, _ => num_silent hq
  | .str s, d, k, _, hk => quoted_silent hn hk.ends fun h => by
      rcases hk _ h with e | e | e | e <;> exact absurd e (by decide)
  | .arr l, d, k, hq, hk => by
      rw [print, show (0x5b :: printElems fmt d l ++ [0x5d] : Bytes) = [0x5b] ++ (printElems fmt d l ++ [0x5d]) from rfl]
      exact NoStart.app (NoStart.plain (by simp)) (NoStart.app (elems_silent hn fmt l d hq (After.cons (by simp))) (NoStart.plain (by simp)))
  | .obj m, d, k, hq, hk => by
      rw [print, show (0x7b :: (if fmt then [0x0a] else []) ++ printMembers fmt (d + 1) m ++ (if fmt then tabs d else []) ++ [0x7d] : Bytes) =
        [0x7b] ++ ((if fmt then [0x0a] else []) ++ (printMembers fmt (d + 1) m ++ ((if fmt then tabs d else []) ++ [0x7d]))) by simp]
      refine NoStart.app (NoStart.plain (by simp)) (NoStart.app (NoStart.plain (by cases fmt <;> simp)) (NoStart.app ?_ (NoStart.app
        (NoStart.plain (by cases fmt <;> simp; exact tabs_plain d)) (NoStart.plain (by simp)))))
      exact members_silent hn fmt m (d + 1) hq (by
        cases fmt with
        | false => exact .inl (After.cons (by simp))
        | true => exact .inr rfl)
theorem elems_silent {nm : Bytes} (hn : Name nm) (fmt : Bool) : ∀ (l : List Json) (d : Nat) {k : Bytes}, QuietL nm l → After k →
    NoStart (mark nm) (printElems fmt d l) k
  | [], d, k, _, _ => by simpa [printElems] using NoStart.nil _ _
  | [j], d, k, hq, hk => by
      rw [printElems, List.append_nil]
      exact print_silent hn fmt j (d + 1) hq.1 hk
  | j :: j2 :: l, d, k, hq, hk => by
      rw [printElems, show (0x2c :: (if fmt then [0x20] else []) ++ printElems fmt d (j2 :: l) : Bytes) =
        [0x2c] ++ ((if fmt then [0x20] else []) ++ printElems fmt d (j2 :: l)) by simp]
      exact NoStart.app (print_silent hn fmt j (d + 1) hq.1 (After.cons (by simp))) (NoStart.app (NoStart.plain (by simp))
        (NoStart.app (NoStart.plain (by cases fmt <;> simp)) (elems_silent hn fmt (j2 :: l) d hq.2 hk)))
theorem members_silent {nm : Bytes} (hn : Name nm) (fmt : Bool) : ∀ (m : List (Bytes × Json)) (d : Nat) {k : Bytes}, QuietM nm m → (After k ∨ fmt = true) →
    NoStart (mark nm) (printMembers fmt d m) k
  | [], d, k, _, _ => by simpa [printMembers] using NoStart.nil _ _
  | (key, j) :: m, d, k, hq, hk => by
      have e : printMembers fmt d ((key, j) :: m) = (if fmt then tabs d else []) ++ (quoted key ++ (([0x3a] : Bytes) ++ ((if fmt then [0x09] else []) ++ (print fmt d j ++
        ((match m with | [] => [] | _ :: _ => ([0x2c] : Bytes)) ++ ((if fmt then [0x0a] else []) ++ printMembers fmt d m)))))) := by
        rw [printMembers.eq_def]; simp; cases m <;> rfl
      rw [e]
      refine NoStart.app (NoStart.plain (by cases fmt <;> simp; exact tabs_plain d)) (NoStart.app (quoted_silent hn ?_ fun _ => hq.1) (NoStart.app
        (NoStart.plain (by simp)) (NoStart.app (NoStart.plain (by cases fmt <;> simp)) (NoStart.app (print_silent hn fmt j d hq.2.1 ?_) (NoStart.app
        (NoStart.plain (by cases m <;> simp)) (NoStart.app (NoStart.plain (by cases fmt <;> simp)) (members_silent hn fmt m d hq.2.2 hk)))))))
      · intro c hc
        simp only [List.cons_append, List.head?_cons, Option.some.injEq] at hc
        simp [← hc]
      · cases m with
        | cons p m => exact After.cons (by simp)
        | nil =>
          cases fmt with
          | true => exact After.cons (by simp)
          | false =>
            rcases hk with h | h
            · simpa [printMembers] using h
            · cases h
end

theorem escape_name {nm : Bytes} (hn : ∀ c ∈ nm, (0x5f : UInt8) ≤ c ∧ c ≤ 0x7a) : escape nm = nm := by
  have h : ∀ i : Fin 256, (0x5f : UInt8) ≤ UInt8.ofNat i.val → UInt8.ofNat i.val ≤ 0x7a → escChar (UInt8.ofNat i.val) = [UInt8.ofNat i.val] := by
    decide +kernel
  induction nm with
  | nil => rfl
  | cons c nm ih =>
    have := h ⟨c.toNat, c.toNat_lt⟩ (by simpa using (hn c (by simp)).1) (by simpa using (hn c (by simp)).2)
    simp only [UInt8.ofNat_toNat] at this
    have ih := ih fun x hx => hn x (by simp [hx])
    unfold escape at ih ⊢
    rw [List.flatMap_cons, this, ih]
    rfl

/-- The text of the members: up to the name nothing is found. -/
theorem members_find {nm : Bytes} (hn : Name nm) (fmt : Bool) (d : Nat) (v : Json) (m2 : List (Bytes × Json)) {k : Bytes} (hk : After k ∨ fmt = true) :
    ∀ {m1 : List (Bytes × Json)}, QuietM nm m1 → ∃ pre rest, After rest ∧
      printMembers fmt d (m1 ++ (nm, v) :: m2) ++ k = pre ++ (mark nm ++ ((if fmt then [0x09] else []) ++ (print fmt d v ++ rest))) ∧
      NoStart (mark nm) pre (mark nm ++ ((if fmt then [0x09] else []) ++ (print fmt d v ++ rest))) := by
  intro m1
  induction m1 with
  | nil =>
    intro _
    refine ⟨if fmt then tabs d else [], (match m2 with | [] => [] | _ :: _ => ([0x2c] : Bytes)) ++ ((if fmt then [0x0a] else []) ++ printMembers fmt d m2) ++ k,
      ?_, ?_, NoStart.plain (by cases fmt <;> simp; exact tabs_plain d)⟩
    · cases m2 with
      | cons p m => exact After.cons (by simp)
      | nil =>
        cases fmt with
        | true => exact After.cons (by simp)
        | false =>
          rcases hk with h | h
          · simpa [printMembers] using h
          · cases h
    · rw [List.nil_append, printMembers.eq_def]
      simp only [quoted, escape_name hn.2, mark]
      cases m2 <;> simp
  | cons p m ih =>
    obtain ⟨key, j⟩ := p
    intro hq
    obtain ⟨pre, rest, hr, e, hs⟩ := ih hq.2.2
    refine ⟨(if fmt then tabs d else []) ++ (quoted key ++ (([0x3a] : Bytes) ++ ((if fmt then [0x09] else []) ++ (print fmt d j ++
        ([0x2c] ++ ((if fmt then [0x0a] else []) ++ pre)))))), rest, hr, ?_, ?_⟩
    · simp only [List.append_assoc]
      rw [← e, List.cons_append, printMembers.eq_def]
      cases m <;> simp
    · refine NoStart.app (NoStart.plain (by cases fmt <;> simp; exact tabs_plain d)) (NoStart.app (quoted_silent hn ?_ fun _ => hq.1) (NoStart.app
        (NoStart.plain (by simp)) (NoStart.app (NoStart.plain (by cases fmt <;> simp)) (NoStart.app (print_silent hn fmt j d hq.2.1 (After.cons (by simp))) (NoStart.app
        (NoStart.plain (by simp)) (NoStart.app (NoStart.plain (by cases fmt <;> simp)) hs))))))
      intro c hc
      simp only [List.cons_append, List.head?_cons, Option.some.injEq] at hc
      simp [← hc]

/-- The text of an object with the name among its members. -/
theorem object_find {nm : Bytes} (hn : Name nm) (fmt : Bool) (v : Json) {m1 m2 : List (Bytes × Json)} (hq : QuietM nm m1) (x : Bytes) :
    ∃ rest, After rest ∧ strstr (mark nm ++ x) (print fmt 0 (.obj (m1 ++ (nm, v) :: m2))) =
      strstr (mark nm ++ x) (mark nm ++ ((if fmt then [0x09] else []) ++ (print fmt 1 v ++ rest))) := by
  obtain ⟨pre, rest, hr, e, hs⟩ := members_find hn fmt 1 v m2 (k := (if fmt then tabs 0 else []) ++ [0x7d]) (by
    cases fmt with
    | false => exact .inl (After.cons (by simp))
    | true => exact .inr rfl) hq
  refine ⟨rest, hr, ?_⟩
  have t : print fmt 0 (.obj (m1 ++ (nm, v) :: m2)) = (0x7b :: (if fmt then [0x0a] else [])) ++ (pre ++
      (mark nm ++ ((if fmt then [0x09] else []) ++ (print fmt 1 v ++ rest)))) := by
    rw [← e, print]
    simp
  rw [t, ← List.append_assoc]
  refine NoStart.find (NoStart.app ?_ hs.longer)
  refine NoStart.plain ?_
  cases fmt <;> simp

/-- An object without the name. -/
theorem object_none {nm : Bytes} (hn : Name nm) (fmt : Bool) {root : Json} (hq : Quiet nm root) (x : Bytes) :
    strstr (mark nm ++ x) (print fmt 0 root) = none := by
  have h := (print_silent hn fmt root 0 (k := []) hq (by intro c hc; simp at hc)).longer (N' := x)
  have := h.find
  rw [List.append_nil] at this
  rw [this]
  simp [strstr, mark]

/-- A tab in front of a number is skipped. -/
theorem skip_tab (fmt : Bool) (s : Bytes) : (Num.strtoul ((if fmt then [0x09] else []) ++ s)).1 = (Num.strtoul s).1 := by
  cases fmt with
  | false => rfl
  | true =>
    have : Num.scanDec (0x09 :: s) = Num.scanDec s := by
      unfold Num.scanDec
      rw [List.dropWhile_cons_of_pos (by decide)]
    simp only [if_true, List.cons_append, List.nil_append, Num.strtoul, this]
    cases Num.scanDec s <;> rfl

theorem After.digit {k : Bytes} (h : After k) : ∀ c, k.head? = some c → Num.isDigit c = false := by
  intro c hc
  rcases h c hc with e | e | e | e <;> subst e <;> decide

theorem amount_find {nm : Bytes} (hn : Name nm) (fmt : Bool) {n : Nat} (h : n < 2 ^ 64) {m1 m2 : List (Bytes × Json)} (hq : QuietM nm m1) :
    ∃ p, strstr (mark nm) (print fmt 0 (.obj (m1 ++ (nm, .num (Num.decNat n)) :: m2))) = some p ∧ (Num.strtoul (p.drop (mark nm).length)).1 = n := by
  obtain ⟨rest, hr, e⟩ := object_find hn fmt (.num (Num.decNat n)) (m2 := m2) hq []
  rw [List.append_nil] at e
  rw [e, Zap.Props.strstr_head _ _ (by simp [mark])]
  refine ⟨_, rfl, ?_⟩
  rw [List.drop_left, skip_tab, print, Num.strtoul_decNat h hr.digit]

/-! ## C193 -/

/-- C193 (part): the balance is the number the wallet wrote, also one that does not fit into a `double`, wherever the member stands in
the result and however the text is laid out by cJSON, if no key in front of it is also called so. Missing: a member of the same name
in an object further ahead (`C193_balance_refuted`), other ways to write the same document (`C193_layout_refuted`). -/
theorem C193_balance_partial (fmt : Bool) {n : Nat} (h : n < 2 ^ 64) {m1 m2 : List (Bytes × Json)} (hq : QuietM (c!"balance") m1) :
    balanceBare (print fmt 0 (.obj (m1 ++ (c!"balance", .num (Num.decNat n)) :: m2))) = .ok n := by
  obtain ⟨p, e1, e2⟩ := amount_find (nm := c!"balance") (by decide) fmt h hq
  unfold balanceBare
  rw [show (c!"\"balance\":") = mark (c!"balance") from rfl, e1]
  rw [show (mark c!"balance").length = 10 from rfl] at e2
  simp only [e2]

/-- C193: a result in which nothing is called so is refused. -/
theorem C193_missing (fmt : Bool) {root : Json} (hq : Quiet (c!"balance") root) : balanceBare (print fmt 0 root) = .err .invalidParam := by
  have := object_none (nm := c!"balance") (by decide) fmt hq []
  rw [List.append_nil] at this
  unfold balanceBare
  rw [show (c!"\"balance\":") = mark (c!"balance") from rfl, this]

/-- C193 (part): the fees of a payment, and none if there are none. Missing as for the balance. -/
theorem C193_fees_partial (fmt : Bool) {n : Nat} (h : n < 2 ^ 64) {m1 m2 : List (Bytes × Json)} (hq : QuietM (c!"fees_paid") m1) :
    feesBare (print fmt 0 (.obj (m1 ++ (c!"fees_paid", .num (Num.decNat n)) :: m2))) = some n ∧
      ∀ root, Quiet (c!"fees_paid") root → feesBare (print fmt 0 root) = none := by
  constructor
  · obtain ⟨p, e1, e2⟩ := amount_find (nm := c!"fees_paid") (by decide) fmt h hq
    unfold feesBare
    rw [show (c!"\"fees_paid\":") = mark (c!"fees_paid") from rfl, e1]
    rw [show (mark c!"fees_paid").length = 12 from rfl] at e2
    simp only [Option.map_some, e2]
  · intro root hr
    have := object_none (nm := c!"fees_paid") (by decide) fmt hr []
    rw [List.append_nil] at this
    unfold feesBare
    rw [show (c!"\"fees_paid\":") = mark (c!"fees_paid") from rfl, this]
    rfl

/-- C193 (part): the preimage, if it needs no escaping and the text is printed without layout, and none if there is none. Missing: the
rest, `C193_escaped_refuted` and `C193_layout_refuted`. -/
theorem C193_preimage_partial {s : Bytes} (hs : Spec.Plain s) {m1 m2 : List (Bytes × Json)} (hq : QuietM (c!"preimage") m1) :
    preimageBare (print false 0 (.obj (m1 ++ (c!"preimage", .str s) :: m2))) = some s ∧
      ∀ (fmt : Bool) root, Quiet (c!"preimage") root → preimageBare (print fmt 0 root) = none := by
  constructor
  · obtain ⟨rest, hr, e⟩ := object_find (nm := c!"preimage") (by decide) false (.str s) (m2 := m2) hq [0x22]
    have hp : (if (false : Bool) then [0x09] else []) ++ (print false 1 (.str s) ++ rest) = ([0x22] : Bytes) ++ (s ++ (0x22 :: rest)) := by
      simp [print, quoted, Nip47.Props.escape_plain hs]
    rw [hp, ← List.append_assoc, Zap.Props.strstr_head _ _ (by simp)] at e
    unfold preimageBare
    rw [show (c!"\"preimage\":\"") = mark (c!"preimage") ++ [0x22] from rfl, e]
    have hd : (mark c!"preimage" ++ [0x22] ++ (s ++ (0x22 :: rest))).drop 12 = s ++ (0x22 :: rest) := List.drop_left' (by rfl)
    have h22 : ∀ c ∈ s, (c != 0x22) = true := fun c hc => by
      have := (hs c hc).1
      simpa using this
    simp only [Option.bind_some, hd]
    rw [if_pos (by simp)]
    rw [List.takeWhile_append_of_pos h22]
    simp
  · intro fmt root hr
    unfold preimageBare
    rw [show (c!"\"preimage\":\"") = mark (c!"preimage") ++ [0x22] from rfl, object_none (by decide) fmt hr]
    rfl

/-- C193 fails for a balance behind another object with a member of this name: the first one in the text is taken. With cJSON the
balance is 5. -/
theorem C193_balance_refuted : balanceBare (c!"{\"metadata\":{\"balance\":7},\"balance\":5}") = .ok 7 ∧
    parseBalance (fun t => if t = c!"5" then 5 else 7) (c!"{\"metadata\":{\"balance\":7},\"balance\":5}") = .ok 5 := by
  constructor <;> decide +kernel

/-- C193 fails for other layouts: a blank in front of the colon makes the balance invisible, any white space behind it the preimage,
also the tab cJSON itself prints there. -/
theorem C193_layout_refuted : balanceBare (c!"{\"balance\" :5}") = .err .invalidParam ∧
    preimageBare (print true 0 (.obj [(c!"preimage", .str (c!"ab"))])) = none ∧
    preimageBare (print false 0 (.obj [(c!"preimage", .str (c!"ab"))])) = some (c!"ab") := by
  refine ⟨?_, ?_, ?_⟩ <;> decide +kernel

/-- C193 fails for preimages with a quotation mark or a backslash: the escapes are not undone, and a quotation mark ends the text. -/
theorem C193_escaped_refuted : preimageBare (print false 0 (.obj [(c!"preimage", .str [0x61, 0x22, 0x62])])) = some [0x61, 0x5c] ∧
    preimageBare (print false 0 (.obj [(c!"preimage", .str [0x5c])])) = some [0x5c, 0x5c] := by
  constructor <;> decide +kernel

/-- C193 fails for what is not a number or no document at all: the text is not looked at as a whole. A text that cJSON refuses is a
balance, and so are a string, which is 0, and a negative number, which is near 2^64. -/
theorem C193_invalid_refuted : (balanceBare (c!"balance? \"balance\":5") = .ok 5 ∧ parse (c!"balance? \"balance\":5") = none) ∧
    balanceBare (c!"{\"balance\":\"5\"}") = .ok 0 ∧ balanceBare (c!"{\"balance\":-1}") = .ok (2 ^ 64 - 1) ∧
    paidBare (c!"no document") = .ok (none, none) := by
  refine ⟨⟨?_, ?_⟩, ?_, ?_, ?_⟩ <;> decide +kernel

/-- C193 fails for the reply itself: whatever the wallet answered, also that the payment failed and why, the caller is told a success of
unknown type with an empty result and no error. With cJSON the same event gives the type, the code and the message. -/
theorem C193_response_refuted {E : Env} {r : Bytes → Json} {sk pk wsk wallet : Bytes} (hN : Nip44.Spec.NcOK E.nc wsk wallet sk pk)
    (hB : Nip44.Spec.B64OK E.b64) (hcfg : Nip44.Spec.CfgOK E.cfg) {nonce type code message ct : Bytes} (hn : nonce.length = 32)
    (ht : CStr type) (hc : CStr code) (hm : CStr message)
    (hl : (print false 0 (Nip47.Props.errorTree type code message)).length ≤ 61440)
    (henc : Nip44.encrypt E.nc E.b64 E.cfg (some nonce) wsk pk (print false 0 (Nip47.Props.errorTree type code message)) = .ok ct)
    {e : Event} (hk : e.kind = 23195) (hec : e.content = some ct) (hp : e.pubkey = wallet) (htag : saysNip44 e.tags = true)
    (hpt : ∀ t ∈ e.tags, ∀ v r, t = c!"p" :: v :: r → ∀ b, hexDecode v 32 = some b → b = wallet) :
    responseBare E e sk = .ok ⟨some (c!"unknown"), some (c!"{}"), none, none⟩ ∧
      ∃ x, parseResponse E r e sk = .ok ⟨some type, x, some code, some message⟩ := by
  have ho := Nip47.Props.C42_response_partial hN hB hcfg hn hl henc hk hec hp htag hpt
  obtain ⟨x, hx⟩ := Nip47.Props.C42_error (r := r) ht hc hm false
  constructor
  · unfold responseBare
    rw [ho]
    rfl
  · refine ⟨x, ?_⟩
    unfold parseResponse
    rw [ho, Res.bind_ok, cstr_self, hx]
    refine print_cstr false 0 _ ?_
    simp only [Nip47.Props.errorTree, Good, GoodM]
    exact ⟨by decide, ht, by decide, ⟨by decide, hc, by decide, hm, trivial⟩, by decide, trivial, trivial⟩

/-- C193 fails for notifications in the same way. With cJSON the same event gives type and body. -/
theorem C193_notification_refuted {E : Env} {r : Bytes → Json} {sk pk wsk wallet : Bytes} (hN : Nip44.Spec.NcOK E.nc wsk wallet sk pk)
    (hB : Nip44.Spec.B64OK E.b64) (hcfg : Nip44.Spec.CfgOK E.cfg) {nonce type ct : Bytes} {j : Json} (hn : nonce.length = 32)
    (ht : CStr type) (hg : Good j) (hh : height j < nestingLimit)
    (hl : (print false 0 (.obj [(c!"notification_type", .str type), (c!"notification", j)])).length ≤ 61440)
    (henc : Nip44.encrypt E.nc E.b64 E.cfg (some nonce) wsk pk
      (print false 0 (.obj [(c!"notification_type", .str type), (c!"notification", j)])) = .ok ct)
    {e : Event} (hk : e.kind = 23197) (hc : e.content = some ct) (hp : e.pubkey = wallet) :
    notificationBare E e sk = .ok (some (c!"unknown"), some (c!"{}")) ∧
      parseNotification E r e sk = .ok (some type, some (reprint r j)) := by
  refine ⟨?_, Nip47.Props.C101_notification_partial hN hB hcfg hn ht hg hh hl henc hk hc hp⟩
  have hd := Nip44.Props.C15_roundtrip_partial hN hB hcfg hn hl henc
  unfold notificationBare
  rw [if_neg (by omega), if_neg (by omega), hc, hp]
  simp only [hd, Res.bind_ok]

/-- C193: at least a reply or notification that cannot be opened is not reported as a success. -/
theorem C193_closed (E : Env) (e : Event) (sk : Bytes) :
    ((∃ R, responseBare E e sk = .ok R) ↔ ∃ t, openResponse E e sk = .ok t) ∧
    ((∃ R, notificationBare E e sk = .ok R) ↔ e.kind = 23197 ∧ ∃ c t, e.content = some c ∧ Nip44.decrypt E.nc E.b64 E.cfg sk e.pubkey c = .ok t) := by
  constructor
  · unfold responseBare
    cases openResponse E e sk <;> simp [Bind.bind, Res.bind]
  · unfold notificationBare
    split
    · simp; omega
    · split
      · simp; omega
      · rename_i h1 h2
        have hk : e.kind = 23197 := by omega
        cases hc : e.content with
        | none => simp
        | some c =>
          simp only [hk, true_and, Option.some.injEq]
          cases hd : Nip44.decrypt E.nc E.b64 E.cfg sk e.pubkey c with
          | ok t => exact ⟨fun _ => ⟨c, t, rfl, hd⟩, fun _ => ⟨_, rfl⟩⟩
          | err x =>
            constructor
            · rintro ⟨R, h⟩; cases h
            · rintro ⟨c', t, rfl, h⟩; rw [hd] at h; cases h
          | ub =>
            constructor
            · rintro ⟨R, h⟩; cases h
            · rintro ⟨c', t, rfl, h⟩; rw [hd] at h; cases h

/-- C193 fails for the description of the wallet: a text that is no document, or the description of a wallet of another network, gives
an invented one on the main network at height 800000 with the key of 64 zeros and no methods. -/
theorem C193_info_refuted : ∀ json, ∃ i, infoBare json = .ok i ∧ i.network = c!"mainnet" ∧ i.height = 800000 ∧
    i.pubkey = List.replicate 64 0x30 ∧ i.methods = [] := fun _ => ⟨_, rfl, rfl, rfl, rfl, rfl⟩

/-! ## Cases -/

/-- A result with a balance above 2^53, behind other members. -/
example : balanceBare (c!"{\"a\":[1,{\"b\":\"balance\"}],\"balance\":18446744073709551615,\"balance\":1}") = .ok (2 ^ 64 - 1) := by
  have := C193_balance_partial false (n := 2 ^ 64 - 1) (by decide) (m1 := [(c!"a", .arr [.num (c!"1"), .obj [(c!"b", .str (c!"balance"))]])])
    (m2 := [(c!"balance", .num (c!"1"))]) (by simp only [QuietM, Quiet, QuietL, Other]; decide +kernel)
  rw [← this]
  congr 1

/-- A payment. -/
example : QuietM (c!"preimage") [(c!"fees_paid", .num (c!"3"))] ∧ Spec.Plain (c!"00ff") ∧
    paidBare (c!"{\"fees_paid\":3,\"preimage\":\"00ff\"}") = .ok (some (c!"00ff"), some 3) := by
  refine ⟨by simp only [QuietM, Quiet, Other]; decide +kernel, ?_, by decide +kernel⟩
  intro c hc
  revert c
  decide +kernel

/-- A payment that failed, and what is said of it. -/
example : ∃ (ct : Bytes) (e : Event), Nip44.encrypt Nip47.Props.toyEnv.nc Nip47.Props.toyEnv.b64 Nip47.Props.toyEnv.cfg (some (List.replicate 32 1)) [1] [4]
      (print false 0 (Nip47.Props.errorTree (c!"pay_invoice") (c!"PAYMENT_FAILED") (c!"no route"))) = .ok ct ∧
    e.kind = 23195 ∧ e.content = some ct ∧ e.pubkey = [2] ∧ saysNip44 e.tags = true ∧
    parseResponse Nip47.Props.toyEnv .num e [3] = .ok ⟨some (c!"pay_invoice"), some (c!"null"), some (c!"PAYMENT_FAILED"), some (c!"no route")⟩ ∧
    responseBare Nip47.Props.toyEnv e [3] = .ok ⟨some (c!"unknown"), some (c!"{}"), none, none⟩ := by
  refine ⟨_, ⟨[], [2], 0, 23195, [[c!"encryption", c!"nip44_v2"]], some _, []⟩, rfl, rfl, rfl, rfl, by decide +kernel, ?_, ?_⟩ <;> decide +kernel

end Nostr.Nip47.Bare
