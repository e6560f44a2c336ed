import Verif.Basic

/-!
# Decimal text: printing as by `%d`/`PRIu64`/`PRId64`, reading as by `strtol`/`strtoul`/`atoi`

These C library functions are used throughout /repo/src; the definitions follow C11 7.21.6.1 and
7.22.1 (base 10, "C" locale, 64-bit `long`).
-/

namespace Nostr.Num
open Nostr

/-- C `isspace` in the "C" locale. -/
def isSpace (c : UInt8) : Bool := c == 0x20 || (decide (0x09 ≤ c) && decide (c ≤ 0x0d))

/-- C `isdigit`. -/
def isDigit (c : UInt8) : Bool := decide (0x30 ≤ c) && decide (c ≤ 0x39)

/-- Digits of `n`, least significant first; `fuel` bounds the number of digits. -/
def revDigits : Nat → Nat → Bytes
  | 0, _ => []
  | f + 1, n => if n < 10 then [UInt8.ofNat (48 + n)]
      else UInt8.ofNat (48 + n % 10) :: revDigits f (n / 10)

/-- `%u`, `%PRIu64`: decimal digits without leading zeros. -/
def decNat (n : Nat) : Bytes := (revDigits (n + 1) n).reverse

/-- `%d`, `%PRId64`. -/
def decInt (i : Int) : Bytes :=
  if i < 0 then 0x2d :: decNat i.natAbs else decNat i.natAbs

/-- Value of a digit string. -/
def natOf (ds : Bytes) : Nat := ds.foldl (fun a c => a * 10 + (c.toNat - 48)) 0

/-- Sign, magnitude and rest as scanned by the `strto*` family; `none` when no conversion is possible
(then `endptr` is the start of the text). -/
def scanDec (s : Bytes) : Option (Bool × Nat × Bytes) :=
  let t := s.dropWhile isSpace
  let sign := t.head? == some 0x2d || t.head? == some 0x2b
  let u := if sign then t.tail else t
  let ds := u.takeWhile isDigit
  if ds = [] then none else some (t.head? == some 0x2d, natOf ds, u.dropWhile isDigit)

/-- `strtoul`/`strtoull`: value and the text at `endptr`. -/
def strtoul (s : Bytes) : Nat × Bytes :=
  match scanDec s with
  | none => (0, s)
  | some (neg, m, rest) =>
      if m ≥ 2 ^ 64 then (2 ^ 64 - 1, rest)
      else (if neg then (2 ^ 64 - m) % 2 ^ 64 else m, rest)

/-- `strtol`/`strtoll`: value and the text at `endptr`. -/
def strtol (s : Bytes) : Int × Bytes :=
  match scanDec s with
  | none => (0, s)
  | some (neg, m, rest) =>
      let v : Int := if neg then -(m : Int) else m
      (if v < -2 ^ 63 then -2 ^ 63 else if v > 2 ^ 63 - 1 then 2 ^ 63 - 1 else v, rest)

/-- Conversion of an integer to a 32-bit `int`, modulo 2^32 as gcc and clang define it. -/
def toInt32 (v : Int) : Int := (v + 2 ^ 31) % 2 ^ 32 - 2 ^ 31

/-- `atoi`: `(int) strtol(s)`. -/
def atoi (s : Bytes) : Int := toInt32 (strtol s).1

theorem isDigit_iff (c : UInt8) : isDigit c = true ↔ 48 ≤ c.toNat ∧ c.toNat ≤ 57 := by
  unfold isDigit
  rw [Bool.and_eq_true, decide_eq_true_eq, decide_eq_true_eq, UInt8.le_iff_toNat_le,
    UInt8.le_iff_toNat_le]
  rfl

theorem digit_toNat {d : Nat} (h : d < 10) : (UInt8.ofNat (48 + d)).toNat = 48 + d := by
  rw [UInt8.toNat_ofNat']; omega

theorem isDigit_ofNat {d : Nat} (h : d < 10) : isDigit (UInt8.ofNat (48 + d)) = true := by
  rw [isDigit_iff, digit_toNat h]; omega

theorem revDigits_ne (f n : Nat) : revDigits (f + 1) n ≠ [] := by
  unfold revDigits; split <;> simp

theorem revDigits_digits (f n : Nat) : ∀ c ∈ revDigits f n, isDigit c = true := by
  induction f generalizing n with
  | zero => simp [revDigits]
  | succ f ih =>
    unfold revDigits
    split
    · simp only [List.mem_singleton, forall_eq]; exact isDigit_ofNat (by omega)
    · simp only [List.mem_cons, forall_eq_or_imp]
      exact ⟨isDigit_ofNat (by omega), ih _⟩

theorem natOf_append (a : Bytes) (c : UInt8) : natOf (a ++ [c]) = natOf a * 10 + (c.toNat - 48) := by
  simp [natOf, List.foldl_append]

theorem natOf_revDigits (f n : Nat) (h : n < f) : natOf (revDigits f n).reverse = n := by
  induction f generalizing n with
  | zero => omega
  | succ f ih =>
    unfold revDigits
    split
    · rename_i h10
      simp only [List.reverse_singleton, natOf, List.foldl_cons, List.foldl_nil]
      rw [digit_toNat h10]; omega
    · rename_i h10
      rw [List.reverse_cons, natOf_append, ih _ (by omega), digit_toNat (by omega)]
      omega

theorem natOf_decNat (n : Nat) : natOf (decNat n) = n := natOf_revDigits _ _ (by omega)

theorem decNat_inj {a b : Nat} (h : decNat a = decNat b) : a = b := by
  rw [← natOf_decNat a, h, natOf_decNat]

theorem decNat_digits (n : Nat) : ∀ c ∈ decNat n, isDigit c = true := by
  intro c hc
  exact revDigits_digits _ _ c (by simpa [decNat] using hc)

theorem decNat_ne (n : Nat) : decNat n ≠ [] := by
  unfold decNat; simp [revDigits_ne]

theorem revDigits_length (f n k : Nat) (hk : 0 < k) (h : n < 10 ^ k) : (revDigits f n).length ≤ k := by
  induction f generalizing n k with
  | zero => simp [revDigits]
  | succ f ih =>
    unfold revDigits
    split
    · simp; omega
    · rename_i h10
      match k, hk, h with
      | 1, _, h => simp at h; omega
      | k + 2, _, h =>
        have := ih (n / 10) (k + 1) (by omega) (by
          rw [Nat.pow_succ] at h; omega)
        simp only [List.length_cons]; omega

/-- Number of digits. -/
theorem decNat_length {n k : Nat} (hk : 0 < k) (h : n < 10 ^ k) : (decNat n).length ≤ k := by
  unfold decNat; rw [List.length_reverse]; exact revDigits_length _ _ _ hk h

theorem decNat_pos (n : Nat) : 0 < (decNat n).length := List.length_pos_iff.2 (decNat_ne n)

theorem digit_not_space_table : ∀ n < 256, isDigit (UInt8.ofNat n) = true →
    isSpace (UInt8.ofNat n) = false ∧ UInt8.ofNat n ≠ 0x2d ∧ UInt8.ofNat n ≠ 0x2b := by decide +kernel

theorem digit_not_space {c : UInt8} (h : isDigit c = true) :
    isSpace c = false ∧ c ≠ 0x2d ∧ c ≠ 0x2b := by
  have := digit_not_space_table c.toNat c.toNat_lt
  rw [UInt8.ofNat_toNat] at this
  exact this h

theorem takeWhile_append_stop {p : UInt8 → Bool} {a rest : Bytes} (ha : ∀ c ∈ a, p c = true)
    (hr : ∀ c, rest.head? = some c → p c = false) :
    (a ++ rest).takeWhile p = a ∧ (a ++ rest).dropWhile p = rest := by
  induction a with
  | nil =>
    cases rest with
    | nil => simp
    | cons c r =>
      have := hr c rfl
      simp [this]
  | cons c a ih =>
    have h1 := ha c (by simp)
    have h2 := ih (fun d hd => ha d (by simp [hd]))
    simp [h1, h2]

/-- Scanning printed digits gives the number back and stops behind them. -/
theorem scanDec_digits {ds rest : Bytes} (hne : ds ≠ []) (hd : ∀ c ∈ ds, isDigit c = true)
    (hr : ∀ c, rest.head? = some c → isDigit c = false) :
    scanDec (ds ++ rest) = some (false, natOf ds, rest) := by
  obtain ⟨c, cs, rfl⟩ := List.exists_cons_of_ne_nil hne
  have hc := digit_not_space (hd c (by simp))
  have h1 : ((c :: cs) ++ rest).dropWhile isSpace = (c :: cs) ++ rest := by simp [hc.1]
  have h2 := takeWhile_append_stop hd hr
  unfold scanDec
  rw [h1]
  have e1 : ((((c :: cs) ++ rest : Bytes).head? == some (0x2d : UInt8)) = false) := by
    simp [hc.2.1]
  have e2 : ((((c :: cs) ++ rest : Bytes).head? == some (0x2b : UInt8)) = false) := by
    simp [hc.2.2]
  simp only [e1, e2, Bool.or_false, Bool.false_eq_true, if_false, h2.1, h2.2, hne]

theorem scanDec_decNat {n : Nat} {rest : Bytes} (hr : ∀ c, rest.head? = some c → isDigit c = false) :
    scanDec (decNat n ++ rest) = some (false, n, rest) := by
  rw [scanDec_digits (decNat_ne n) (decNat_digits n) hr, natOf_decNat]

theorem scanDec_minus {n : Nat} {rest : Bytes} (hr : ∀ c, rest.head? = some c → isDigit c = false) :
    scanDec (0x2d :: decNat n ++ rest) = some (true, n, rest) := by
  have h2 := takeWhile_append_stop (decNat_digits n) hr
  have h1 : (0x2d :: decNat n ++ rest).dropWhile isSpace = 0x2d :: decNat n ++ rest := by
    simp [show isSpace 0x2d = false by decide]
  unfold scanDec
  rw [h1]
  have h3 : (0x2d :: decNat n ++ rest).head? = some 0x2d := rfl
  have h4 : (0x2d :: decNat n ++ rest).tail = decNat n ++ rest := rfl
  simp [h3, h4, h2.1, h2.2, decNat_ne, natOf_decNat]

/-- Printing a `long` and reading it back. -/
theorem strtol_decInt {i : Int} {rest : Bytes} (h1 : -2 ^ 63 ≤ i) (h2 : i ≤ 2 ^ 63 - 1)
    (hr : ∀ c, rest.head? = some c → isDigit c = false) : strtol (decInt i ++ rest) = (i, rest) := by
  unfold strtol decInt
  by_cases hi : i < 0
  · rw [if_pos hi, scanDec_minus hr]
    have : -(i.natAbs : Int) = i := by omega
    simp only [this, if_true]
    rw [if_neg (by omega), if_neg (by omega)]
  · rw [if_neg hi, scanDec_decNat hr]
    have : (i.natAbs : Int) = i := by omega
    simp only [this, Bool.false_eq_true, if_false]
    rw [if_neg (by omega), if_neg (by omega)]

theorem strtoul_decNat {n : Nat} {rest : Bytes} (h : n < 2 ^ 64)
    (hr : ∀ c, rest.head? = some c → isDigit c = false) : strtoul (decNat n ++ rest) = (n, rest) := by
  unfold strtoul
  rw [scanDec_decNat hr]
  simp only [Bool.false_eq_true, if_false]
  rw [if_neg (by omega)]

theorem decInt_ne (i : Int) : decInt i ≠ [] := by
  unfold decInt; split
  · simp
  · exact decNat_ne _

theorem decInt_inj {a b : Int} (h : decInt a = decInt b) : a = b := by
  have hd : ∀ n, ∀ t, decNat n ≠ 0x2d :: t := by
    intro n t ht
    have := decNat_digits n 0x2d (by rw [ht]; simp)
    revert this; decide
  unfold decInt at h
  split at h <;> split at h
  · have := decNat_inj (List.cons.inj h).2; omega
  · exact absurd h.symm (hd _ _)
  · exact absurd h (hd _ _)
  · have := decNat_inj h; omega

/-- Characters of a printed integer. -/
theorem decInt_chars (i : Int) : ∀ c ∈ decInt i, isDigit c = true ∨ c = 0x2d := by
  intro c hc
  unfold decInt at hc
  split at hc
  · rcases List.mem_cons.1 hc with h | h
    · exact .inr h
    · exact .inl (decNat_digits _ _ h)
  · exact .inl (decNat_digits _ _ hc)

theorem decInt_length (i : Int) (h1 : -2 ^ 63 ≤ i) (h2 : i ≤ 2 ^ 63 - 1) : (decInt i).length ≤ 20 := by
  have hn : i.natAbs < 10 ^ 19 := by omega
  have := decNat_length (by omega) hn
  unfold decInt
  split
  · simp only [List.length_cons]; omega
  · omega

/-- Two digit strings followed by the same kind of stop are equal when the whole texts are. -/
theorem split_eq {p : UInt8 → Bool} {a b r s : Bytes} (ha : ∀ c ∈ a, p c = true) (hb : ∀ c ∈ b, p c = true)
    (hr : ∀ c, r.head? = some c → p c = false) (hs : ∀ c, s.head? = some c → p c = false)
    (h : a ++ r = b ++ s) : a = b ∧ r = s := by
  have h1 := takeWhile_append_stop ha hr
  have h2 := takeWhile_append_stop hb hs
  rw [h] at h1
  exact ⟨h1.1.symm.trans h2.1, h1.2.symm.trans h2.2⟩

example : decInt (-1700000000) = c!"-1700000000" ∧ (strtol (c!" +42x")).1 = 42 := by decide +kernel

end Nostr.Num
