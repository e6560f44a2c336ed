import Verif.Basic

/-! # Bit strings: most significant bit first (helper lemmas) -/

namespace Nostr

/-- The `w` low bits of `n`, most significant first. -/
def bitsBE : Nat → Nat → List Bool
  | 0, _ => []
  | w + 1, n => n.testBit w :: bitsBE w n

@[simp] theorem bitsBE_length (w n : Nat) : (bitsBE w n).length = w := by
  induction w <;> simp_all [bitsBE]

theorem bitsBE_congr {w n m : Nat} (h : ∀ i < w, n.testBit i = m.testBit i) :
    bitsBE w n = bitsBE w m := by
  induction w with
  | zero => rfl
  | succ w ih =>
    simp only [bitsBE]
    rw [h w (by omega), ih (fun i hi => h i (by omega))]

theorem bitsBE_mod {w k : Nat} (n : Nat) (h : w ≤ k) : bitsBE w (n % 2 ^ k) = bitsBE w n := by
  apply bitsBE_congr
  intro i hi
  rw [Nat.testBit_mod_two_pow]
  simp; omega

theorem bitsBE_add (a b n : Nat) : bitsBE (a + b) n = bitsBE a (n >>> b) ++ bitsBE b n := by
  induction a with
  | zero => simp [bitsBE]
  | succ a ih =>
    have : a + 1 + b = (a + b) + 1 := by omega
    rw [this]
    simp only [bitsBE, ih, Nat.testBit_shiftRight, List.cons_append]
    rw [Nat.add_comm b a]

theorem bitsBE_testBit {w n m : Nat} (h : bitsBE w n = bitsBE w m) :
    ∀ i < w, n.testBit i = m.testBit i := by
  induction w with
  | zero => intro i hi; omega
  | succ w ih =>
    simp only [bitsBE, List.cons.injEq] at h
    intro i hi
    by_cases hw : i = w
    · subst hw; exact h.1
    · exact ih h.2 i (by omega)

theorem bitsBE_inj {w n m : Nat} (hn : n < 2 ^ w) (hm : m < 2 ^ w)
    (h : bitsBE w n = bitsBE w m) : n = m := by
  apply Nat.eq_of_testBit_eq
  intro i
  by_cases hi : i < w
  · exact bitsBE_testBit h i hi
  · have hp : 2 ^ w ≤ 2 ^ i := Nat.pow_le_pow_right (by omega) (by omega)
    rw [Nat.testBit_lt_two_pow (by omega), Nat.testBit_lt_two_pow (by omega)]

theorem bitsBE_shiftLeft_zeros (a b n : Nat) :
    bitsBE (a + b) (n <<< b) = bitsBE a n ++ List.replicate b false := by
  rw [bitsBE_add]
  congr 1
  · rw [Nat.shiftLeft_shiftRight]
  · apply List.ext_getElem
    · simp
    · intro i h1 h2
      have : ∀ w k, k ≤ b → w = k → ∀ i (h : i < (bitsBE k (n <<< b)).length),
          (bitsBE k (n <<< b))[i] = false := by
        intro w k hk hw
        subst hw
        induction w with
        | zero => intro i h; simp at h
        | succ k ih =>
          intro i h
          cases i with
          | zero =>
            simp [bitsBE]
            omega
          | succ i =>
            simp only [bitsBE, List.getElem_cons_succ]
            exact ih (by omega) i _
      rw [this b b (Nat.le_refl _) rfl i h1]
      simp

theorem bitsBE_append_low {a f acc v : Nat} (hv : v < 2 ^ f) :
    bitsBE (a + f) ((acc <<< f) ||| v) = bitsBE a acc ++ bitsBE f v := by
  rw [bitsBE_add]
  congr 1
  · apply bitsBE_congr
    intro i _
    rw [Nat.testBit_shiftRight, Nat.testBit_or, Nat.testBit_shiftLeft]
    have : v.testBit (f + i) = false :=
      Nat.testBit_lt_two_pow (Nat.lt_of_lt_of_le hv (Nat.pow_le_pow_right (by omega) (by omega)))
    simp [this]
  · apply bitsBE_congr
    intro i hi
    rw [Nat.testBit_or, Nat.testBit_shiftLeft]
    simp; omega

theorem bitsBE_zero (w : Nat) : bitsBE w 0 = List.replicate w false := by
  induction w with
  | zero => rfl
  | succ w ih => simp [bitsBE, ih, List.replicate_succ]

theorem mod_eq_zero_of_bitsBE {w n : Nat} (h : bitsBE w n = List.replicate w false) :
    n % 2 ^ w = 0 := by
  apply bitsBE_inj (w := w) (Nat.mod_lt _ (Nat.two_pow_pos w)) (Nat.two_pow_pos w)
  rw [bitsBE_mod _ (Nat.le_refl _), h, bitsBE_zero]

/-- Concatenated `w`-bit representations of a list of bytes. -/
def flat (w : Nat) (xs : Bytes) : List Bool := xs.flatMap fun x => bitsBE w x.toNat

@[simp] theorem flat_nil (w : Nat) : flat w [] = [] := rfl
@[simp] theorem flat_cons (w : Nat) (x : UInt8) (xs : Bytes) :
    flat w (x :: xs) = bitsBE w x.toNat ++ flat w xs := rfl
@[simp] theorem flat_append (w : Nat) (xs ys : Bytes) :
    flat w (xs ++ ys) = flat w xs ++ flat w ys := by simp [flat]
@[simp] theorem flat_length (w : Nat) (xs : Bytes) : (flat w xs).length = w * xs.length := by
  induction xs with
  | nil => simp
  | cons x xs ih => simp [ih, Nat.mul_add]; omega

/-- All entries fit `w` bits. -/
def Fits (w : Nat) (xs : Bytes) : Prop := ∀ x ∈ xs, x.toNat < 2 ^ w

instance (w : Nat) (xs : Bytes) : Decidable (Fits w xs) :=
  inferInstanceAs (Decidable (∀ x ∈ xs, _))

theorem Fits.append {w : Nat} {xs ys : Bytes} (h1 : Fits w xs) (h2 : Fits w ys) :
    Fits w (xs ++ ys) := by
  intro x hx
  rcases List.mem_append.1 hx with h | h
  · exact h1 x h
  · exact h2 x h

theorem fits8 (xs : Bytes) : Fits 8 xs := fun x _ => by
  have := x.toNat_lt; simpa using this

theorem flat_inj {w : Nat} (hw : 0 < w) {xs ys : Bytes} (hx : Fits w xs) (hy : Fits w ys)
    (h : flat w xs = flat w ys) : xs = ys := by
  induction xs generalizing ys with
  | nil =>
    cases ys with
    | nil => rfl
    | cons y ys =>
      have := congrArg List.length h
      simp at this
      omega
  | cons x xs ih =>
    cases ys with
    | nil =>
      have := congrArg List.length h
      simp at this
      omega
    | cons y ys =>
      simp only [flat_cons] at h
      have hl := List.append_inj h (by simp)
      have hxy : x = y := by
        apply UInt8.toNat_inj.1
        exact bitsBE_inj (hx x (by simp)) (hy y (by simp)) hl.1
      rw [hxy, ih (fun z hz => hx z (by simp [hz])) (fun z hz => hy z (by simp [hz])) hl.2]

end Nostr
