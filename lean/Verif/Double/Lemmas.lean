import Verif.Double.Model
import Verif.Event.JsonLemmas

/-!
# Numbers of 16 digits written and read as doubles
-/

namespace Nostr.Double
open Nostr Nostr.Json

theorem nearest_exact {a : Nat} (h : a < 2 ^ 53) : nearest a 1 = a := by
  unfold nearest
  rw [Nat.div_one, if_pos h]
  simp only [roundDiv, Nat.mod_one, Nat.div_one]
  rw [if_pos (by omega)]
  exact Nat.mul_div_cancel _ (Nat.two_pow_pos _)

theorem ofInt_exact {n : Int} (h : n.natAbs < 2 ^ 53) : ofInt n = n := by
  unfold ofInt
  rw [nearest_exact h]
  split <;> omega

theorem nearest_even {a : Nat} (h : 2 ^ 53 ≤ a) : nearest a 1 % 2 = 0 := by
  unfold nearest
  rw [Nat.div_one, if_neg (by omega)]
  have h1 : 53 ≤ a.log2 := (Nat.le_log2 (by omega)).2 h
  obtain ⟨k, hk⟩ : ∃ k, a.log2 - 52 = k + 1 := ⟨a.log2 - 53, by omega⟩
  simp only [hk]
  rw [Nat.pow_succ, ← Nat.mul_assoc]
  exact Nat.mul_mod_left _ _

theorem natOf_lt : ∀ (ds : Bytes), (∀ c ∈ ds, Num.isDigit c = true) → Num.natOf ds < 10 ^ ds.length := by
  intro ds
  rw [← List.reverse_reverse ds]
  generalize ds.reverse = r
  induction r with
  | nil => intro _; decide
  | cons c r ih =>
    intro h
    rw [List.reverse_cons] at h ⊢
    have h1 := ih (fun x hx => h x (by simp [hx]))
    have h2 := (Num.isDigit_iff c).1 (h c (by simp))
    rw [Num.natOf_append, List.length_append, List.length_singleton, Nat.pow_succ]
    omega

theorem length_decNat {a k : Nat} (h1 : 10 ^ k ≤ a) (h2 : a < 10 ^ (k + 1)) : (Num.decNat a).length = k + 1 := by
  have := Num.decNat_length (k := k + 1) (by omega) h2
  have h3 := natOf_lt _ (Num.decNat_digits a)
  rw [Num.natOf_decNat] at h3
  have : k < (Num.decNat a).length := (Nat.pow_lt_pow_iff_right (by decide : 1 < 10)).1 (by omega)
  omega

theorem natOf_zeros (t : Bytes) : ∀ z, Num.natOf (t ++ List.replicate z 0x30) = Num.natOf t * 10 ^ z
  | 0 => by simp
  | z + 1 => by
    rw [List.replicate_succ', ← List.append_assoc, Num.natOf_append, natOf_zeros t z, Nat.pow_succ]
    simp [Nat.mul_assoc]

theorem zeros_first (r : Bytes) : ∃ z, r = List.replicate z 0x30 ++ r.dropWhile (fun c => c == 0x30) := by
  induction r with
  | nil => exact ⟨0, rfl⟩
  | cons c r ih =>
    by_cases h : c = 0x30
    · subst h
      obtain ⟨z, hz⟩ := ih
      refine ⟨z + 1, ?_⟩
      rw [List.dropWhile_cons_of_pos (by decide), List.replicate_succ, List.cons_append, ← hz]
    · refine ⟨0, ?_⟩
      rw [List.dropWhile_cons_of_neg (by simpa using h)]
      rfl

theorem strip_spec (ds : Bytes) : ∃ z, ds = strip ds ++ List.replicate z 0x30 := by
  obtain ⟨z, hz⟩ := zeros_first ds.reverse
  refine ⟨z, ?_⟩
  unfold strip
  have := congrArg List.reverse hz
  rwa [List.reverse_reverse, List.reverse_append, List.reverse_replicate] at this

/-- The text of `general` with an exponent. -/
def sci (d : UInt8) (fs : Bytes) (x : Nat) : Bytes :=
  d :: ((if fs = [] then [] else 0x2e :: fs) ++ c!"e+" ++ Num.decNat x)

/-- A sign. -/
def Sgn (g : Bytes) : Prop := g = [] ∨ g = [0x2d]

theorem digits_stop {a rest : Bytes} (ha : ∀ c ∈ a, Num.isDigit c = true) (hr : ∀ c, rest.head? = some c → Num.isDigit c = false) :
    digits (a ++ rest) = a := (Num.takeWhile_append_stop ha hr).1

theorem digits_all {a : Bytes} (ha : ∀ c ∈ a, Num.isDigit c = true) : digits a = a := takeWhile_all ha

theorem digit_head {d : UInt8} (h : Num.isDigit d = true) : d ≠ 0x2d ∧ d ≠ 0x2b := by
  constructor <;> (rintro rfl; revert h; decide)

theorem digits_x (x : Nat) : digits (Num.decNat x) = Num.decNat x := digits_all (Num.decNat_digits x)

theorem sci_good {g : Bytes} (hg : Sgn g) {d : UInt8} {fs : Bytes} {x : Nat} (hd : Num.isDigit d = true)
    (hf : ∀ c ∈ fs, Num.isDigit c = true) (hl : fs.length ≤ 30) (hx : x < 100) : GoodNum (g ++ sci d fs x) := by
  have hxl := Num.decNat_length (n := x) (k := 2) (by omega) hx
  have hxn := Num.decNat_ne x
  have ⟨d1, d2⟩ := digit_head hd
  have k1 : digits (d :: ((if fs = [] then [] else 0x2e :: fs) ++ c!"e+" ++ Num.decNat x)) = [d] := by
    refine digits_stop (a := [d]) (by simpa using hd) ?_
    intro c hc
    split at hc
    · have : c = 0x65 := by simpa using hc.symm
      subst this; decide
    · have : c = 0x2e := by simpa using hc.symm
      subst this; decide
  have k2 : digits (fs ++ (c!"e+" ++ Num.decNat x)) = fs := by
    refine digits_stop hf ?_
    intro c hc
    have : c = 0x65 := by simpa using hc.symm
    subst this; decide
  refine ⟨?_, ?_, ?_, ?_⟩
  · unfold strtodPrefix sci
    by_cases hfs : fs = []
    · subst hfs
      simp only [if_true, List.nil_append, List.cons_append] at k1 ⊢
      rcases hg with rfl | rfl <;> simp [d1, d2, k1, digits_x, hxn]
    · simp only [hfs, if_false, List.cons_append, List.append_assoc, List.nil_append] at k1 k2 ⊢
      rcases hg with rfl | rfl <;> simp [d1, d2, k1, k2, digits_x, hxn]
  · rcases hg with rfl | rfl <;> unfold sci <;> split <;> simp <;> omega
  · intro c hc
    have e1 : ∀ c ∈ sci d fs x, isNumChar c = true := by
      intro c hc
      unfold sci at hc
      rcases List.mem_cons.1 hc with rfl | hc
      · exact isDigit_numChar hd
      rcases List.mem_append.1 hc with hc | hc
      · rcases List.mem_append.1 hc with hc | hc
        · split at hc
          · simp at hc
          · rcases List.mem_cons.1 hc with rfl | hc
            · decide
            · exact isDigit_numChar (hf c hc)
        · rcases List.mem_cons.1 hc with rfl | hc
          · decide
          · rcases List.mem_singleton.1 hc with rfl
            decide
      · exact isDigit_numChar (Num.decNat_digits x c hc)
    rcases List.mem_append.1 hc with h | h
    · rcases hg with rfl | rfl
      · simp at h
      · rcases List.mem_singleton.1 h with rfl
        decide
    · exact e1 c h
  · rcases hg with rfl | rfl
    · exact ⟨d, rfl, .inr hd⟩
    · exact ⟨_, rfl, .inl rfl⟩

/-- A number with its sign. -/
def withSgn (g : Bytes) (v : Nat) : Int := if g = [] then v else -(v : Int)

theorem read_sci {g : Bytes} (hg : Sgn g) {d : UInt8} {fs : Bytes} {x : Nat} (hd : Num.isDigit d = true)
    (hf : ∀ c ∈ fs, Num.isDigit c = true) (hl : fs.length ≤ x) :
    read (g ++ sci d fs x) = withSgn g (nearest (Num.natOf (d :: fs) * 10 ^ (x - fs.length)) 1) := by
  have ⟨d1, d2⟩ := digit_head hd
  have k1 : digits (d :: ((if fs = [] then [] else 0x2e :: fs) ++ c!"e+" ++ Num.decNat x)) = [d] := by
    refine digits_stop (a := [d]) (by simpa using hd) ?_
    intro c hc
    split at hc
    · have : c = 0x65 := by simpa using hc.symm
      subst this; decide
    · have : c = 0x2e := by simpa using hc.symm
      subst this; decide
  have k2 : digits (fs ++ (c!"e+" ++ Num.decNat x)) = fs := by
    refine digits_stop hf ?_
    intro c hc
    have : c = 0x65 := by simpa using hc.symm
    subst this; decide
  have k3 : ((x : Int) - (fs.length : Int)).toNat = x - fs.length := by omega
  have k4 : (0 : Int) ≤ (x : Int) - (fs.length : Int) := by omega
  unfold read sci withSgn
  by_cases hfs : fs = []
  · subst hfs
    simp only [if_true, List.nil_append, List.cons_append] at k1 ⊢
    rcases hg with rfl | rfl <;> simp [d1, d2, k1, digits_x, Num.natOf_decNat]
  · simp only [hfs, if_false, List.cons_append, List.append_assoc, List.nil_append] at k1 k2 ⊢
    rcases hg with rfl | rfl <;> simp [d1, d2, k1, k2, k3, hl, digits_x, Num.natOf_decNat]

theorem read_plain {g : Bytes} (hg : Sgn g) {ds : Bytes} (hne : ds ≠ []) (hd : ∀ c ∈ ds, Num.isDigit c = true) :
    read (g ++ ds) = withSgn g (nearest (Num.natOf ds) 1) := by
  obtain ⟨d, r, rfl⟩ := List.exists_cons_of_ne_nil hne
  have ⟨d1, d2⟩ := digit_head (hd d (by simp))
  have k := digits_all hd
  unfold read withSgn
  rcases hg with rfl | rfl <;> simp [d1, d2, k]

theorem plainInt_sci {g : Bytes} (hg : Sgn g) {d : UInt8} {fs : Bytes} {x : Nat} (hd : Num.isDigit d = true) :
    plainInt (g ++ sci d fs x) = none := by
  have ⟨d1, d2⟩ := digit_head hd
  have h1 : ¬ (sci d fs x).all Num.isDigit = true := by
    rw [List.all_eq_true]
    intro h
    have := h 0x65 (by simp [sci])
    revert this; decide
  unfold plainInt
  rcases hg with rfl | rfl
  · have : ((sci d fs x).head? == some (0x2d : UInt8)) = false := by simp [sci, d1]
    simp only [List.nil_append, this, Bool.false_eq_true, if_false, h1, and_false]
  · simp [h1]

theorem plainInt_long {g : Bytes} (hg : Sgn g) {ds : Bytes} (hd : ∀ c ∈ ds, Num.isDigit c = true) (hl : 15 < ds.length) :
    plainInt (g ++ ds) = none := by
  unfold plainInt
  rcases hg with rfl | rfl
  · have : (ds.head? == some (0x2d : UInt8)) = false := by
      rw [beq_eq_false_iff_ne]
      intro h
      have := hd _ (List.mem_of_head? h)
      revert this; decide
    simp only [List.nil_append, this, Bool.false_eq_true, if_false]
    rw [if_neg (by omega)]
  · simp only [List.cons_append, List.nil_append, List.head?_cons, List.tail_cons, BEq.rfl, if_true]
    rw [if_neg (by omega)]

/-- `general` with more digits than asked for. -/
theorem general_sci {p a : Nat} (hp : 10 ≤ p) (h : p < (Num.decNat (roundSig p a)).length) : ∃ d fs x, general p a = sci d fs x ∧
    Num.isDigit d = true ∧ (∀ c ∈ fs, Num.isDigit c = true) ∧ fs.length ≤ x ∧ x + 1 = (Num.decNat (roundSig p a)).length ∧
    Num.natOf (d :: fs) * 10 ^ (x - fs.length) = roundSig p a := by
  obtain ⟨z, hz⟩ := strip_spec (Num.decNat (roundSig p a))
  have hdig := Num.decNat_digits (roundSig p a)
  have hval := Num.natOf_decNat (roundSig p a)
  have hlen : (Num.decNat (roundSig p a)).length = (strip (Num.decNat (roundSig p a))).length + z := by
    conv => lhs; rw [hz]
    simp
  have hpos : 0 < roundSig p a := by
    refine Nat.pos_of_ne_zero fun h0 => ?_
    rw [h0] at h
    have := Num.decNat_length (n := 0) (k := 1) (by decide) (by decide)
    omega
  have hne : strip (Num.decNat (roundSig p a)) ≠ [] := by
    intro h0
    rw [h0] at hz
    rw [hz, natOf_zeros] at hval
    simp [Num.natOf] at hval
    omega
  unfold general
  rw [if_neg (by omega), if_neg (by omega)]
  generalize hx : (Num.decNat (roundSig p a)).length - 1 = x
  generalize hs : strip (Num.decNat (roundSig p a)) = t at *
  have htd : ∀ c ∈ t, Num.isDigit c = true := fun c hc => hdig c (by rw [hz]; simp [hc])
  obtain ⟨d, fs, rfl⟩ := List.exists_cons_of_ne_nil hne
  refine ⟨d, fs, x, ?_, htd d (by simp), fun c hc => htd c (by simp [hc]), ?_, by omega, ?_⟩
  · unfold sci
    cases fs <;> simp
  · simp only [List.length_cons] at hlen
    omega
  · have : x - fs.length = z := by simp only [List.length_cons] at hlen; omega
    rw [this, ← natOf_zeros, ← hz, hval]

/-- Tens. -/
def tens (a : Nat) : Nat := roundDiv a 10 * 10

theorem roundSig_15 {a : Nat} (h1 : 10 ^ 15 ≤ a) (h2 : a < 2 ^ 53) : roundSig 15 a = tens a := by
  unfold roundSig tens
  rw [length_decNat (k := 15) h1 (by omega)]
  rfl

theorem roundSig_17 {a : Nat} (h1 : 10 ^ 15 ≤ a) (h2 : a < 2 ^ 53) : roundSig 17 a = a := by
  unfold roundSig
  rw [length_decNat (k := 15) h1 (by omega)]
  rfl

theorem tens_near (a : Nat) : tens a % 10 = 0 ∧ tens a ≤ a + 5 ∧ a ≤ tens a + 5 := by
  unfold tens roundDiv
  split <;> omega

theorem tens_range {a : Nat} (h1 : 10 ^ 15 ≤ a) (h2 : a < 2 ^ 53) : 10 ^ 15 ≤ tens a ∧ tens a < 2 ^ 53 := by
  have := tens_near a
  omega

/-- The sign of a number. -/
def sgn (n : Int) : Bytes := if n < 0 then [0x2d] else []

theorem sgn_ok (n : Int) : Sgn (sgn n) := by
  unfold sgn Sgn
  split <;> simp

theorem withSgn_natAbs (n : Int) : withSgn (sgn n) n.natAbs = n := by
  unfold withSgn sgn
  split <;> simp <;> omega

theorem withSgn_inj {n : Int} {a b : Nat} (h : withSgn (sgn n) a = withSgn (sgn n) b) : a = b := by
  unfold withSgn sgn at h
  split at h <;> simp at h <;> omega

/-- The text of a number of 16 digits, and what is read from it. -/
theorem tok_16 {n : Int} (h1 : 10 ^ 15 ≤ n.natAbs) (h2 : n.natAbs < 2 ^ 53) :
    GoodNum (numTok ofInt format n) ∧
    int64 read (numTok ofInt format n) = if close (tens n.natAbs) n.natAbs then withSgn (sgn n) (tens n.natAbs) else n := by
  obtain ⟨t1, t2⟩ := tens_range h1 h2
  have hk := length_decNat (k := 15) t1 (by omega)
  unfold numTok
  rw [if_neg (by omega), ofInt_exact h2]
  unfold format
  simp only []
  rw [roundSig_15 h1 h2, nearest_exact t2]
  show GoodNum (sgn n ++ _) ∧ int64 read (sgn n ++ _) = _
  split
  · obtain ⟨d, fs, x, e1, e2, e3, e4, e5, e6⟩ := general_sci (p := 15) (a := n.natAbs) (by decide) (by rw [roundSig_15 h1 h2, hk]; decide)
    rw [roundSig_15 h1 h2] at e5 e6
    rw [hk] at e5
    rw [e1]
    refine ⟨sci_good (sgn_ok n) e2 e3 (by omega) (by omega), ?_⟩
    unfold int64
    rw [plainInt_sci (sgn_ok n) e2, Option.getD_none, read_sci (sgn_ok n) e2 e3 e4, e6, nearest_exact t2]
  · have e1 : general 17 n.natAbs = Num.decNat n.natAbs := by
      unfold general
      rw [roundSig_17 h1 h2]
      exact if_pos (by rw [length_decNat (k := 15) h1 (by omega)]; decide)
    have hl := length_decNat (k := 15) h1 (by omega)
    rw [e1]
    constructor
    · have := Event.goodNum_decInt (i := n) (by omega)
      unfold Num.decInt at this
      unfold sgn
      split <;> rename_i hn
      · rwa [if_pos hn] at this
      · rwa [if_neg hn] at this
    · unfold int64
      rw [plainInt_long (sgn_ok n) (Num.decNat_digits _) (by omega), Option.getD_none,
        read_plain (sgn_ok n) (Num.decNat_ne _) (Num.decNat_digits _), Num.natOf_decNat, nearest_exact h2, withSgn_natAbs]

theorem close_iff {a : Nat} (h2 : a < 2 ^ 53) : close (tens a) a = true ↔ a % 10 = 0 ∨ 2 ^ 52 ≤ a ∧ (a % 10 = 1 ∨ a % 10 = 9) := by
  unfold close
  rw [decide_eq_true_iff]
  have h : a % 10 = 0 ∧ tens a = a ∨ a % 10 = 1 ∧ tens a + 1 = a ∨ a % 10 = 9 ∧ tens a = a + 1 ∨
      (2 ≤ a % 10 ∧ a % 10 ≤ 8 ∧ (tens a + 2 ≤ a ∨ a + 2 ≤ tens a)) := by
    unfold tens roundDiv
    split <;> omega
  have := tens_near a
  rcases Nat.le_total (tens a) a with hle | hle
  · rw [Nat.max_eq_right hle]; omega
  · rw [Nat.max_eq_left hle]; omega

theorem roundDiv_le (p q : Nat) : roundDiv p q ≤ p / q + 1 := by
  unfold roundDiv
  split <;> omega

theorem nearest_le (a : Nat) : nearest a 1 ≤ 2 * a := by
  rcases Nat.lt_or_ge a (2 ^ 53) with h | h
  · rw [nearest_exact h]; omega
  · unfold nearest
    rw [Nat.div_one, if_neg (by omega)]
    simp only [Nat.one_mul]
    have h1 := roundDiv_le a (2 ^ (a.log2 - 52))
    have h2 : 2 ^ (a.log2 - 52) ≤ a := by
      have := (Nat.le_log2 (n := a) (by omega)).1 (Nat.le_refl _)
      exact Nat.le_trans (Nat.pow_le_pow_right (by decide) (by omega)) this
    have h3 := Nat.div_mul_le_self a (2 ^ (a.log2 - 52))
    have h4 := Nat.mul_le_mul_right (2 ^ (a.log2 - 52)) h1
    rw [Nat.add_mul] at h4
    omega

theorem nearest_ge {a : Nat} (h : 2 ^ 53 ≤ a) : 2 ^ 53 ≤ nearest a 1 := by
  unfold nearest
  rw [Nat.div_one, if_neg (by omega)]
  simp only [Nat.one_mul]
  obtain ⟨k, hk⟩ : ∃ k, a.log2 = k + 53 := ⟨a.log2 - 53, by have := (Nat.le_log2 (n := a) (by omega)).2 h; omega⟩
  have h1 : 2 ^ (k + 53) ≤ a := by rw [← hk]; exact (Nat.le_log2 (n := a) (by omega)).1 (Nat.le_refl _)
  have e : a.log2 - 52 = k + 1 := by omega
  rw [e]
  have h2 : 2 ^ 52 ≤ a / 2 ^ (k + 1) := by
    rw [Nat.le_div_iff_mul_le (Nat.two_pow_pos _), ← Nat.pow_add]
    rwa [show 52 + (k + 1) = k + 53 by omega]
  have h3 : a / 2 ^ (k + 1) ≤ roundDiv a (2 ^ (k + 1)) := by unfold roundDiv; split <;> omega
  have h4 : 2 ≤ 2 ^ (k + 1) := by
    have := Nat.pow_le_pow_right (n := 2) (by decide) (show 1 ≤ k + 1 by omega)
    omega
  calc 2 ^ 53 = 2 ^ 52 * 2 := by decide
    _ ≤ _ := Nat.mul_le_mul (Nat.le_trans h2 h3) h4

theorem roundSig_le (p : Nat) {a : Nat} (h0 : 0 < a) : roundSig (p + 1) a ≤ 2 * a := by
  unfold roundSig
  simp only []
  split
  · omega
  · rename_i h
    generalize hu : 10 ^ ((Num.decNat a).length - (p + 1)) = u
    have h1 := roundDiv_le a u
    have h3 := Nat.div_mul_le_self a u
    have h4 := Nat.mul_le_mul_right u h1
    rw [Nat.add_mul] at h4
    have h5 : u ≤ a := by
      rw [← hu]
      refine Classical.byContradiction fun hc => ?_
      have := Num.decNat_length (n := a) (k := (Num.decNat a).length - (p + 1)) (by omega) (by omega)
      omega
    omega

theorem roundSig_even {p a : Nat} (h : a % 2 = 0) : roundSig p a % 2 = 0 := by
  unfold roundSig
  simp only []
  split
  · exact h
  · rename_i hk
    obtain ⟨k, hk⟩ : ∃ k, (Num.decNat a).length - p = k + 1 := ⟨(Num.decNat a).length - p - 1, by omega⟩
    rw [hk, Nat.pow_succ, ← Nat.mul_assoc]
    omega

theorem ofInt_natAbs (n : Int) : (ofInt n).natAbs = nearest n.natAbs 1 := by
  unfold ofInt
  split <;> omega

theorem even_withSgn {g : Bytes} {v : Nat} (h : v % 2 = 0) : withSgn g v % 2 = 0 := by
  unfold withSgn
  split <;> omega

theorem nearest_even' {a : Nat} (h : a % 2 = 0) : nearest a 1 % 2 = 0 := by
  rcases Nat.lt_or_ge a (2 ^ 53) with h1 | h1
  · rw [nearest_exact h1]; exact h
  · exact nearest_even h1

theorem pow_le_of_length {a k : Nat} (hk : 0 < k) (h : k < (Num.decNat a).length) : 10 ^ k ≤ a := by
  refine Classical.byContradiction fun hc => ?_
  have := Num.decNat_length (n := a) (k := k) hk (by omega)
  omega

theorem roundSig_short {p a : Nat} (hp : 0 < p) (h : (Num.decNat (roundSig p a)).length ≤ p) : roundSig p a = a := by
  rcases Nat.lt_or_ge p (Num.decNat a).length with hl | hl
  · exfalso
    unfold roundSig at h
    simp only [] at h
    rw [if_neg (by omega)] at h
    generalize hk : (Num.decNat a).length = k at h hl
    have h1 : 10 ^ (k - 1) ≤ a := pow_le_of_length (by omega) (by omega)
    have e : 10 ^ (k - 1) = 10 ^ (p - 1) * 10 ^ (k - p) := by rw [← Nat.pow_add]; congr 1; omega
    have h2 : 10 ^ (p - 1) ≤ a / 10 ^ (k - p) := by
      rw [Nat.le_div_iff_mul_le (Nat.pow_pos (by decide)), ← e]
      exact h1
    have h3 : a / 10 ^ (k - p) ≤ roundDiv a (10 ^ (k - p)) := by unfold roundDiv; split <;> omega
    have h4 := Nat.mul_le_mul_right (10 ^ (k - p)) (Nat.le_trans h2 h3)
    rw [← e] at h4
    have h5 := natOf_lt _ (Num.decNat_digits (roundDiv a (10 ^ (k - p)) * 10 ^ (k - p)))
    rw [Num.natOf_decNat] at h5
    have := (Nat.pow_lt_pow_iff_right (a := 10) (by decide)).1 (Nat.lt_of_le_of_lt h4 h5)
    omega
  · unfold roundSig
    exact if_pos hl

/-- The text of `general` is read as the number it was written for, rounded. -/
theorem general_read {g : Bytes} (hg : Sgn g) {p a : Nat} (hp : 15 ≤ p) (hp2 : p ≤ 30) (h1 : 10 ^ 15 ≤ a) (h2 : a < 10 ^ 20) :
    GoodNum (g ++ general p a) ∧ int64 read (g ++ general p a) = withSgn g (nearest (roundSig p a) 1) := by
  have hpos : 0 < a := Nat.lt_of_lt_of_le (by decide) h1
  obtain ⟨p', rfl⟩ : ∃ p', p = p' + 1 := ⟨p - 1, by omega⟩
  have hle := roundSig_le p' hpos
  rcases Nat.lt_or_ge (p' + 1) (Num.decNat (roundSig (p' + 1) a)).length with h | h
  · obtain ⟨d, fs, x, e1, e2, e3, e4, e5, e6⟩ := general_sci (p := p' + 1) (a := a) (by omega) h
    have hl := Num.decNat_length (n := roundSig (p' + 1) a) (k := 21) (by decide) (by omega)
    rw [e1]
    refine ⟨sci_good hg e2 e3 (by omega) (by omega), ?_⟩
    unfold int64
    rw [plainInt_sci hg e2, Option.getD_none, read_sci hg e2 e3 e4, e6]
  · have e0 : roundSig (p' + 1) a = a := roundSig_short (by omega) h
    have hal : 15 < (Num.decNat a).length := by
      refine Classical.byContradiction fun hc => ?_
      have := natOf_lt _ (Num.decNat_digits a)
      rw [Num.natOf_decNat] at this
      have h3 : (10 : Nat) ^ (Num.decNat a).length ≤ 10 ^ 15 := Nat.pow_le_pow_right (by decide) (by omega)
      omega
    have e1 : general (p' + 1) a = Num.decNat a := by
      unfold general
      rw [e0] at h ⊢
      exact if_pos h
    rw [e1, e0]
    constructor
    · have hg1 := Event.goodNum_decInt (i := -(a : Int)) (by omega)
      have hg2 := Event.goodNum_decNat h2
      rcases hg with rfl | rfl
      · exact hg2
      · unfold Num.decInt at hg1
        rw [if_pos (by omega), Int.natAbs_neg, Int.natAbs_natCast] at hg1
        exact hg1
    · unfold int64
      rw [plainInt_long hg (Num.decNat_digits _) hal, Option.getD_none,
        read_plain hg (Num.decNat_ne _) (Num.decNat_digits _), Num.natOf_decNat]

/-- The text of a number beyond 2^53, and what is read from it. -/
theorem tok_big64 {n : Int} (h1 : 2 ^ 53 ≤ n.natAbs) (h2 : n.natAbs ≤ 2 ^ 64) :
    GoodNum (numTok ofInt format n) ∧ int64 read (numTok ofInt format n) % 2 = 0 := by
  have a1 := nearest_ge h1
  have a2 := nearest_le n.natAbs
  have a3 := nearest_even h1
  have hs : ∀ d : Int, (if d < 0 then [0x2d] else [] : Bytes) = sgn d := fun _ => rfl
  unfold numTok
  rw [if_neg (by omega)]
  unfold format
  simp only [hs, ofInt_natAbs]
  have k := fun p h3 h4 => general_read (sgn_ok (ofInt n)) (p := p) (a := nearest n.natAbs 1) h3 h4 (by omega) (by omega)
  split
  · exact ⟨(k 15 (by decide) (by decide)).1, by
      rw [(k 15 (by decide) (by decide)).2]; exact even_withSgn (nearest_even' (roundSig_even a3))⟩
  · exact ⟨(k 17 (by decide) (by decide)).1, by
      rw [(k 17 (by decide) (by decide)).2]; exact even_withSgn (nearest_even' (roundSig_even a3))⟩

theorem tok_big {n : Int} (h1 : 2 ^ 53 ≤ n.natAbs) (h2 : n.natAbs ≤ 2 ^ 63) :
    GoodNum (numTok ofInt format n) ∧ int64 read (numTok ofInt format n) % 2 = 0 := tok_big64 h1 (Nat.le_trans h2 (by decide))

/-- Every 64-bit number is written as a number. -/
theorem tok_good64 {n : Int} (h : n.natAbs ≤ 2 ^ 64) : GoodNum (numTok ofInt format n) := by
  rcases Nat.lt_or_ge n.natAbs (10 ^ 15) with h1 | h1
  · rw [Event.numTok_small _ _ h1]
    exact Event.goodNum_decInt (by omega)
  · rcases Nat.lt_or_ge n.natAbs (2 ^ 53) with h2 | h2
    · exact (tok_16 h1 h2).1
    · exact (tok_big64 h2 h).1

theorem tok_good {n : Int} (h : n.natAbs ≤ 2 ^ 63) : GoodNum (numTok ofInt format n) := tok_good64 (Nat.le_trans h (by decide))

/-- Which numbers below 2^53 survive. -/
theorem back_iff {n : Int} (h : n.natAbs < 2 ^ 53) :
    int64 read (numTok ofInt format n) = n ↔ ¬ (2 ^ 52 ≤ n.natAbs ∧ (n.natAbs % 10 = 1 ∨ n.natAbs % 10 = 9)) := by
  rcases Nat.lt_or_ge n.natAbs (10 ^ 15) with h1 | h1
  · rw [Event.numTok_small _ _ h1, Event.int64_decInt _ h1]
    omega
  · rw [(tok_16 h1 h).2]
    have hc := close_iff h
    have h3 := tens_near n.natAbs
    have e : withSgn (sgn n) (tens n.natAbs) = n ↔ tens n.natAbs = n.natAbs := by
      constructor
      · intro he
        exact withSgn_inj (n := n) (by rw [he, withSgn_natAbs])
      · intro he
        rw [he, withSgn_natAbs]
    split
    · rename_i hcl
      rw [e]
      have := hc.1 hcl
      omega
    · rename_i hcl
      have : ¬ (n.natAbs % 10 = 0 ∨ 2 ^ 52 ≤ n.natAbs ∧ (n.natAbs % 10 = 1 ∨ n.natAbs % 10 = 9)) := fun h => hcl (hc.2 h)
      simp only [true_iff]
      omega

end Nostr.Double
