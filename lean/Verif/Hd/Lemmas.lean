import Verif.Hd.Spec
import Verif.Hd.Table

namespace Nostr.Hd
open Nostr Nostr.Text

/-! ## Searching a sorted table -/

theorem strcmp_zero {a b : Bytes} : strcmp a b = 0 ↔ a = b := by
  induction a generalizing b with
  | nil => cases b <;> simp [strcmp]
  | cons x a ih =>
    cases b with
    | nil => simp [strcmp]
    | cons y b =>
      unfold strcmp
      split
      · rename_i h
        have : x ≠ y := fun e => by rw [e] at h; exact absurd h (UInt8.lt_irrefl y)
        simp [this]
      · rename_i h
        split
        · rename_i h2
          have : x ≠ y := fun e => by rw [e] at h2; exact absurd h2 (UInt8.lt_irrefl y)
          simp [this]
        · rename_i h2
          have : x = y := UInt8.le_antisymm (UInt8.not_lt.1 h2) (UInt8.not_lt.1 h)
          rw [ih, List.cons.injEq]
          simp [this]

theorem strcmp_trans {a b c : Bytes} (h1 : strcmp a b < 0) (h2 : strcmp b c < 0) : strcmp a c < 0 := by
  induction a generalizing b c with
  | nil =>
    cases b with
    | nil => simp [strcmp] at h1
    | cons y b => cases c with
      | nil => simp [strcmp] at h2
      | cons z c => simp [strcmp]
  | cons x a ih =>
    cases b with
    | nil => simp [strcmp] at h1
    | cons y b => cases c with
      | nil => simp [strcmp] at h2
      | cons z c =>
        unfold strcmp at h1 h2 ⊢
        split at h1
        · rename_i hxy
          split at h2
          · rename_i hyz
            rw [if_pos (UInt8.lt_trans hxy hyz)]; omega
          · rename_i hyz
            split at h2
            · simp at h2
            · rename_i hzy
              have : y = z := UInt8.le_antisymm (UInt8.not_lt.1 hzy) (UInt8.not_lt.1 hyz)
              rw [← this, if_pos hxy]; omega
        · rename_i hxy
          split at h1
          · simp at h1
          · rename_i hyx
            have : x = y := UInt8.le_antisymm (UInt8.not_lt.1 hyx) (UInt8.not_lt.1 hxy)
            subst this
            split at h2
            · rename_i hyz
              rw [if_pos hyz]; omega
            · rename_i hyz
              split at h2
              · simp at h2
              · rename_i hzy
                rw [if_neg hyz, if_neg hzy]
                exact ih h1 h2

theorem strcmp_swap {a b : Bytes} : 0 < strcmp a b ↔ strcmp b a < 0 := by
  induction a generalizing b with
  | nil => cases b <;> simp [strcmp]
  | cons x a ih =>
    cases b with
    | nil => simp [strcmp]
    | cons y b =>
      unfold strcmp
      by_cases h1 : x < y
      · have h2 : ¬ y < x := fun h => UInt8.lt_irrefl x (UInt8.lt_trans h1 h)
        rw [if_pos h1, if_neg h2, if_pos h1]; simp
      · by_cases h2 : y < x
        · rw [if_neg h1, if_pos h2, if_pos h2]; simp
        · rw [if_neg h1, if_neg h2, if_neg h2, if_neg h1]; exact ih

theorem ascending_pairwise (t : List Bytes) (h : ascending t = true) : t.Pairwise fun a b => strcmp a b < 0 := by
  induction t with
  | nil => exact .nil
  | cons a t ih =>
    cases t with
    | nil => exact List.pairwise_singleton _ _
    | cons b t =>
      simp only [ascending, Bool.and_eq_true, decide_eq_true_eq] at h
      have hp := ih h.2
      refine List.Pairwise.cons ?_ hp
      intro c hc
      rcases List.mem_cons.1 hc with rfl | hc
      · exact h.1
      · exact strcmp_trans h.1 (List.rel_of_pairwise_cons hp hc)

theorem sorted_lt {t : List Bytes} (h : t.Pairwise fun a b => strcmp a b < 0) {i j : Nat} {a b : Bytes}
    (hi : t[i]? = some a) (hj : t[j]? = some b) (hij : i < j) : strcmp a b < 0 := by
  obtain ⟨hil, rfl⟩ := List.getElem?_eq_some_iff.1 hi
  obtain ⟨hjl, rfl⟩ := List.getElem?_eq_some_iff.1 hj
  exact List.pairwise_iff_getElem.1 h i j hil hjl hij

theorem search_iff {t : List Bytes} (h : t.Pairwise fun a b => strcmp a b < 0) (w : Bytes) :
    ∀ (fuel : Nat) (l r : Int), 0 ≤ l → r < t.length → r - l + 1 < fuel → ∀ i : Nat,
      (searchLoop t w fuel l r = some i ↔ l ≤ i ∧ i ≤ r ∧ t[i]? = some w) := by
  intro fuel
  induction fuel with
  | zero =>
             intro l r hl hr hf i
             simp only [searchLoop]
             constructor
             · intro h'; cases h'
             · rintro ⟨_, _, _⟩; omega
  | succ fuel ih =>
    intro l r hl hr hf i
    unfold searchLoop
    by_cases hlr : l ≤ r
    · rw [if_pos hlr]
      simp only
      have hm1 : l ≤ l + (r - l) / 2 := by omega
      have hm2 : l + (r - l) / 2 ≤ r := by omega
      generalize hm : l + (r - l) / 2 = mid at hm1 hm2
      have hmid : mid.toNat < t.length := by omega
      have hget : t[mid.toNat]? = some (t.getD mid.toNat []) := by
        rw [List.getD_eq_getElem?_getD, List.getElem?_eq_getElem hmid]; rfl
      generalize hx : t.getD mid.toNat [] = x at hget
      split
      · rename_i hz
        have hwx := strcmp_zero.1 hz
        subst hwx
        constructor
        · intro he
          have : mid.toNat = i := Option.some.inj he
          exact ⟨by omega, by omega, this ▸ hget⟩
        · rintro ⟨_, _, hi⟩
          congr 1
          rcases Nat.lt_trichotomy mid.toNat i with hlt | heq | hgt
          · have := sorted_lt h hget hi hlt
            rw [strcmp_zero.2 rfl] at this; omega
          · exact heq
          · have := sorted_lt h hi hget hgt
            rw [strcmp_zero.2 rfl] at this; omega
      · rename_i hnz
        split
        · rename_i hneg
          rw [ih l (mid - 1) hl (by omega) (by omega) i]
          constructor
          · rintro ⟨a1, a2, a3⟩; exact ⟨a1, by omega, a3⟩
          · rintro ⟨a1, a2, a3⟩
            refine ⟨a1, ?_, a3⟩
            rcases Nat.lt_trichotomy i mid.toNat with hlt | heq | hgt
            · omega
            · rw [heq, hget] at a3
              cases a3
              rw [strcmp_zero.2 rfl] at hneg; omega
            · have h1 := sorted_lt h hget a3 hgt
              have h2 := strcmp_trans hneg h1
              rw [strcmp_zero.2 rfl] at h2; omega
        · rename_i hpos
          have hpos : strcmp x w < 0 := strcmp_swap.1 (by omega)
          rw [ih (mid + 1) r (by omega) hr (by omega) i]
          constructor
          · rintro ⟨a1, a2, a3⟩; exact ⟨by omega, a2, a3⟩
          · rintro ⟨a1, a2, a3⟩
            refine ⟨?_, a2, a3⟩
            rcases Nat.lt_trichotomy i mid.toNat with hlt | heq | hgt
            · have h1 := sorted_lt h a3 hget hlt
              have h2 := strcmp_trans hpos h1
              rw [strcmp_zero.2 rfl] at h2; omega
            · rw [heq, hget] at a3
              cases a3
              rw [strcmp_zero.2 rfl] at hpos; omega
            · omega
    · rw [if_neg hlr]
      constructor
      · intro h'; cases h'
      · rintro ⟨_, _, _⟩; omega

theorem words_sorted : words.Pairwise fun a b => strcmp a b < 0 := ascending_pairwise _ words_ascending

theorem wordIndex_iff (w : Bytes) (i : Nat) : wordIndex w = some i ↔ words[i]? = some w := by
  unfold wordIndex
  rw [search_iff words_sorted w 2049 0 (2048 - 1) (by omega) (by rw [words_length]; omega) (by omega) i]
  constructor
  · rintro ⟨_, _, h⟩; exact h
  · intro h
    obtain ⟨hl, _⟩ := List.getElem?_eq_some_iff.1 h
    rw [words_length] at hl
    exact ⟨by omega, by omega, h⟩

/-! ## Bits -/

theorem bits_append (w : Nat) (a b : List Nat) : Spec.bits w (a ++ b) = Spec.bits w a ++ Spec.bits w b := by
  simp [Spec.bits]

theorem bits_length (w : Nat) (a : List Nat) : (Spec.bits w a).length = w * a.length := by
  induction a with
  | nil => simp [Spec.bits]
  | cons x a ih =>
    rw [show Spec.bits w (x :: a) = bitsBE w x ++ Spec.bits w a from rfl, List.length_append, ih, bitsBE_length,
      List.length_cons, Nat.mul_add]
    omega

theorem bits_inj {w : Nat} (hw : 0 < w) {a b : List Nat} (ha : ∀ n ∈ a, n < 2 ^ w) (hb : ∀ n ∈ b, n < 2 ^ w)
    (h : Spec.bits w a = Spec.bits w b) : a = b := by
  induction a generalizing b with
  | nil =>
    have := congrArg List.length h
    rw [bits_length, bits_length] at this
    have h0 : b.length = 0 := by
      rcases Nat.eq_zero_or_pos b.length with h | h
      · exact h
      · have := Nat.mul_pos hw h
        simp at *; omega
    exact (List.length_eq_zero_iff.1 h0).symm
  | cons x a ih =>
    cases b with
    | nil =>
      have := congrArg List.length h
      rw [bits_length, bits_length] at this
      simp only [List.length_cons, List.length_nil, Nat.mul_zero, Nat.mul_add] at this
      omega
    | cons y b =>
      obtain ⟨h1, h2⟩ := List.append_inj (s₁ := bitsBE w x) (s₂ := bitsBE w y) h (by simp)
      rw [bitsBE_inj (ha x (by simp)) (hb y (by simp)) h1,
        ih (fun n hn => ha n (by simp [hn])) (fun n hn => hb n (by simp [hn])) h2]

theorem byteBits_eq (b : Bytes) : Spec.byteBits b = flat 8 b := by
  unfold Spec.byteBits Spec.bits flat
  rw [List.flatMap_map]

theorem byteBits_length (b : Bytes) : (Spec.byteBits b).length = 8 * b.length := by
  rw [byteBits_eq, flat_length]

theorem byteBits_inj {a b : Bytes} (h : Spec.byteBits a = Spec.byteBits b) : a = b := by
  rw [byteBits_eq, byteBits_eq] at h
  exact flat_inj (by omega) (fits8 a) (fits8 b) h

theorem take_bitsBE (a b n : Nat) : (bitsBE (a + b) n).take a = bitsBE a (n >>> b) := by
  rw [bitsBE_add]
  exact List.take_left' (by simp)

theorem drop_bitsBE (a b n : Nat) : (bitsBE (a + b) n).drop a = bitsBE b n := by
  rw [bitsBE_add]
  exact List.drop_left' (by simp)

/-- Reading eleven bits in the middle of three bytes. -/
theorem window (x s : Nat) (hs : s ≤ 7) :
    bitsBE 11 ((x >>> (24 - 11 - s)) &&& 0x7FF) = ((bitsBE 24 x).drop s).take 11 := by
  have h1 : (0x7FF : Nat) = 2 ^ 11 - 1 := rfl
  rw [h1, Nat.and_two_pow_sub_one_eq_mod, bitsBE_mod _ (Nat.le_refl _)]
  have h2 : (bitsBE 24 x).drop s = bitsBE (24 - s) x := by
    have := drop_bitsBE s (24 - s) x
    rwa [show s + (24 - s) = 24 by omega] at this
  have h3 := take_bitsBE 11 (24 - 11 - s) x
  rw [show 11 + (24 - 11 - s) = 24 - s by omega] at h3
  rw [h2, h3]

theorem flat_drop (b : Bytes) (n : Nat) : (flat 8 b).drop (8 * n) = flat 8 (b.drop n) := by
  conv => lhs; rw [← List.take_append_drop n b, flat_append]
  by_cases h : n ≤ b.length
  · exact List.drop_left' (by rw [flat_length, List.length_take]; omega)
  · have h' : b.drop n = [] := List.drop_eq_nil_of_le (by omega)
    rw [h', flat_nil, List.append_nil, List.drop_eq_nil_of_le (by rw [flat_length, List.length_take]; omega)]

theorem flat_take (b : Bytes) (n : Nat) : (flat 8 b).take (8 * n) = flat 8 (b.take n) := by
  conv => lhs; rw [← List.take_append_drop n b, flat_append]
  by_cases h : n ≤ b.length
  · exact List.take_left' (by rw [flat_length, List.length_take]; omega)
  · have h' : b.drop n = [] := List.drop_eq_nil_of_le (by omega)
    rw [h', flat_nil, List.append_nil, List.take_of_length_le (by rw [flat_length, List.length_take]; omega)]

theorem three_bits (a b c : UInt8) :
    bitsBE 24 ((a.toNat <<< 16) ||| (b.toNat <<< 8) ||| c.toNat) = flat 8 [a, b, c] := by
  have ha := a.toNat_lt; have hb := b.toNat_lt; have hc := c.toNat_lt
  have e : (a.toNat <<< 16) ||| (b.toNat <<< 8) ||| c.toNat = (((a.toNat <<< 8) ||| b.toNat) <<< 8) ||| c.toNat := by
    rw [Nat.shiftLeft_or_distrib, ← Nat.shiftLeft_add]
  rw [e, show (24 : Nat) = (8 + 8) + 8 from rfl, bitsBE_append_low (by simpa using hc),
    bitsBE_append_low (by simpa using hb)]
  simp

/-- The index of word `i` is made of the bits `11 i … 11 i + 10` of the combined buffer. -/
theorem indexAt_bits (c : Bytes) (i : Nat) (h : 11 * i / 8 + 2 < c.length) :
    bitsBE 11 (indexAt c i) = ((flat 8 c).drop (11 * i)).take 11 := by
  unfold indexAt
  simp only
  rw [window _ _ (by omega), three_bits]
  have hi : i * 11 = 11 * i := by omega
  rw [hi]
  have hd : 11 * i = 8 * (11 * i / 8) + 11 * i % 8 := by omega
  conv => rhs; rw [hd, ← List.drop_drop, flat_drop]
  generalize 11 * i / 8 = k at *
  generalize hs : 11 * i % 8 = s
  have hs7 : s ≤ 7 := by omega
  have h3 : c.drop k = c.getD k 0 :: c.getD (k + 1) 0 :: c.getD (k + 2) 0 :: c.drop (k + 3) := by
    rw [List.drop_eq_getElem_cons (by omega : k < c.length), List.drop_eq_getElem_cons (by omega : k + 1 < c.length),
      List.drop_eq_getElem_cons (by omega : k + 1 + 1 < c.length)]
    simp [List.getD_eq_getElem?_getD, List.getElem?_eq_getElem (by omega : k < c.length),
      List.getElem?_eq_getElem (by omega : k + 1 < c.length), List.getElem?_eq_getElem (by omega : k + 2 < c.length)]
  have h4 : flat 8 (c.drop k) = flat 8 [c.getD k 0, c.getD (k + 1) 0, c.getD (k + 2) 0] ++ flat 8 (c.drop (k + 3)) := by
    rw [h3]; simp
  rw [h4, List.drop_append_of_le_length (by simp; omega), List.take_append_of_le_length (by simp; omega)]

theorem indexAt_lt (c : Bytes) (i : Nat) : indexAt c i < 2048 := by
  unfold indexAt
  have h1 : (0x7FF : Nat) = 2 ^ 11 - 1 := rfl
  simp only
  rw [h1, Nat.and_two_pow_sub_one_eq_mod]
  exact Nat.mod_lt _ (by decide)

/-- All words together spell the first bits of the buffer. -/
theorem indices_bits (c : Bytes) : ∀ n, (n = 0 ∨ 11 * (n - 1) / 8 + 2 < c.length) →
    Spec.bits 11 ((List.range n).map (indexAt c)) = (flat 8 c).take (11 * n) := by
  intro n
  induction n with
  | zero => intro _; simp [Spec.bits]
  | succ n ih =>
    intro h
    have h' : 11 * n / 8 + 2 < c.length := by
      rcases h with h | h
      · omega
      · simpa using h
    rw [List.range_succ, List.map_append, bits_append, ih (by
      rcases Nat.eq_zero_or_pos n with h0 | h0
      · exact .inl h0
      · right; omega)]
    have : Spec.bits 11 ([n].map (indexAt c)) = bitsBE 11 (indexAt c n) := by simp [Spec.bits]
    rw [this, indexAt_bits c n h', show 11 * (n + 1) = 11 * n + 11 by omega, List.take_add]

/-! ## Writing bits -/

theorem set_table : ∀ x < 256, ∀ p < 8, bitsBE 8 (UInt8.ofNat (x ||| 1 <<< (7 - p))).toNat = (bitsBE 8 x).set p true := by
  decide +kernel

theorem flat_set (e : Bytes) (p : Nat) (h : p / 8 < e.length) :
    flat 8 (e.set (p / 8) (UInt8.ofNat ((e.getD (p / 8) 0).toNat ||| 1 <<< (7 - p % 8)))) = (flat 8 e).set p true := by
  induction e generalizing p with
  | nil => simp at h
  | cons x e ih =>
    by_cases hp : p < 8
    · have h0 : p / 8 = 0 := by omega
      have hm : p % 8 = p := by omega
      rw [h0, hm]
      simp only [List.set_cons_zero, List.getD_cons_zero, flat_cons]
      rw [set_table x.toNat (by have := x.toNat_lt; simpa using this) p hp]
      rw [List.set_append_left _ _ (by simpa using hp)]
    · obtain ⟨q, rfl⟩ : ∃ q, p = q + 8 := ⟨p - 8, by omega⟩
      have h0 : (q + 8) / 8 = q / 8 + 1 := by omega
      have hm : (q + 8) % 8 = q % 8 := by omega
      rw [h0] at h ⊢
      rw [hm]
      simp only [List.set_cons_succ, List.getD_cons_succ, flat_cons]
      rw [ih q (by simpa using h), List.set_append_right _ _ (by simp)]
      simp

theorem set_first {done : List Bool} {k p : Nat} (hp : p = done.length) :
    (done ++ List.replicate (k + 1) false).set p true = (done ++ [true]) ++ List.replicate k false := by
  subst hp
  rw [List.set_append_right _ _ (Nat.le_refl _)]
  simp [List.replicate_succ]

theorem and_bit (n j : Nat) : (n &&& (1 <<< j) ≠ 0) ↔ n.testBit j = true := by
  rw [Nat.one_shiftLeft]
  have hb : (n &&& 2 ^ j).testBit j = n.testBit j := by
    rw [Nat.testBit_and, Nat.testBit_two_pow_self, Bool.and_true]
  constructor
  · intro h
    cases ht : n.testBit j with
    | true => rfl
    | false =>
      exfalso
      apply h
      apply Nat.eq_of_testBit_eq
      intro k
      rw [Nat.testBit_and, Nat.zero_testBit]
      by_cases hk : j = k
      · subst hk; simp [ht]
      · simp [Nat.testBit_two_pow_of_ne hk]
  · intro h h0
    rw [h0, Nat.zero_testBit, h] at hb
    cases hb

/-- The buffer holds `done` followed by zeros. -/
def Holds (e : Bytes) (done : List Bool) : Prop :=
  e.length = 33 ∧ ∃ k, flat 8 e = done ++ List.replicate k false

theorem bitLoop_ok (idx i : Nat) (pre : List Bool) (hpre : pre.length = i * 11) (hi : i < 24) :
    ∀ n, n ≤ 11 → ∀ e, Holds e (pre ++ (bitsBE 11 idx).take (11 - n)) →
      ∃ e', bitLoop idx i ((List.range 11).drop (11 - n)) e = .ok e' ∧ Holds e' (pre ++ bitsBE 11 idx) := by
  intro n
  induction n with
  | zero =>
    intro _ e he
    refine ⟨e, rfl, ?_⟩
    rwa [Nat.sub_zero, List.take_of_length_le (by simp)] at he
  | succ n ih =>
    intro hn e he
    have hb : 11 - (n + 1) < 11 := by omega
    have hlist : (List.range 11).drop (11 - (n + 1)) = (11 - (n + 1)) :: (List.range 11).drop (11 - n) := by
      rw [List.drop_eq_getElem_cons (by simp; omega)]
      rw [List.getElem_range]
      congr 2
      omega
    have hbit : (bitsBE 11 idx).take (11 - n) = (bitsBE 11 idx).take (11 - (n + 1)) ++ [idx.testBit (10 - (11 - (n + 1)))] := by
      have hg : (bitsBE 11 idx)[11 - (n + 1)]? = some (idx.testBit (10 - (11 - (n + 1)))) := by
        have key : ∀ w k, k < w → (bitsBE w idx)[k]? = some (idx.testBit (w - 1 - k)) := by
          intro w
          induction w with
          | zero => intro k hk; omega
          | succ w ihw =>
            intro k hk
            cases k with
            | zero => simp [bitsBE]
            | succ k =>
              simp only [bitsBE, List.getElem?_cons_succ]
              rw [ihw k (by omega)]
              congr 2
              omega
        exact key 11 _ hb
      have : 11 - n = (11 - (n + 1)) + 1 := by omega
      rw [this, List.take_add_one, hg]
      rfl
    obtain ⟨h33, k, hk⟩ := he
    have hlen := congrArg List.length hk
    simp only [flat_length, h33, List.length_append, List.length_take, bitsBE_length, List.length_replicate, hpre] at hlen
    obtain ⟨k', rfl⟩ : ∃ k', k = k' + 1 := ⟨k - 1, by omega⟩
    rw [hlist]
    unfold bitLoop
    by_cases hbz : idx &&& (1 <<< (10 - (11 - (n + 1)))) ≠ 0
    · have htb := (and_bit _ _).1 hbz
      rw [if_pos hbz]
      have hr : (i * 11 + (11 - (n + 1))) / 8 < e.length := by omega
      unfold setBit
      rw [if_pos hr]
      simp only [Res.bind_ok]
      apply ih (by omega)
      refine ⟨by simp [h33], k', ?_⟩
      rw [flat_set _ _ hr, hk, set_first (by simp [hpre]; omega), hbit, htb]
      simp
    · have htb : idx.testBit (10 - (11 - (n + 1))) = false := by
        cases h : idx.testBit (10 - (11 - (n + 1))) with
        | false => rfl
        | true => exact absurd ((and_bit _ _).2 h) hbz
      rw [if_neg hbz]
      apply ih (by omega)
      refine ⟨h33, k', ?_⟩
      rw [hk, hbit, htb]
      simp [List.replicate_succ]

theorem wordLoop_ok (idxs : List Nat) : ∀ (i : Nat) (pre : List Nat) (e : Bytes), pre.length = i → i + idxs.length ≤ 24 →
    Holds e (Spec.bits 11 pre) → ∃ e', wordLoop idxs i e = .ok e' ∧ Holds e' (Spec.bits 11 (pre ++ idxs)) := by
  induction idxs with
  | nil => intro i pre e _ _ he; exact ⟨e, rfl, by simpa using he⟩
  | cons idx idxs ih =>
    intro i pre e hp hl he
    simp only [List.length_cons] at hl
    obtain ⟨e1, h1, h2⟩ := bitLoop_ok idx i (Spec.bits 11 pre) (by rw [bits_length, hp]; omega) (by omega) 11 (Nat.le_refl _) e
      (by simpa using he)
    have h2' : Holds e1 (Spec.bits 11 (pre ++ [idx])) := by
      rw [bits_append]
      simpa [Spec.bits] using h2
    obtain ⟨e2, h3, h4⟩ := ih (i + 1) (pre ++ [idx]) e1 (by simp [hp]) (by omega) h2'
    refine ⟨e2, ?_, by simpa using h4⟩
    unfold wordLoop
    have h1' : bitLoop idx i (List.range 11) e = .ok e1 := by simpa using h1
    rw [h1']
    exact h3

theorem holds_zero : Holds (List.replicate 33 0) (Spec.bits 11 []) := by
  refine ⟨by simp, 264, ?_⟩
  decide +kernel

/-! ## Looking up the words of a phrase -/

theorem readWords_iff (ws : List Bytes) : ∀ (n : Nat) (is : List Nat), readWords ws n = .ok is ↔
    (ws = [] ∨ n + ws.length ≤ 24) ∧ (∀ i ∈ is, i < 2048) ∧ ws = is.map fun i => words.getD i [] := by
  induction ws with
  | nil =>
    intro n is
    simp only [readWords, Res.ok.injEq]
    constructor
    · rintro rfl; simp
    · rintro ⟨_, _, h⟩
      exact (List.map_eq_nil_iff.1 h.symm).symm
  | cons w ws ih =>
    intro n is
    unfold readWords
    by_cases hn : n < 24
    · rw [if_pos hn]
      cases hw : wordIndex w with
      | none =>
        simp only
        constructor
        · intro h; cases h
        · rintro ⟨_, h2, h3⟩
          cases is with
          | nil => simp at h3
          | cons i is =>
            simp only [List.map_cons, List.cons.injEq] at h3
            have hi := h2 i (by simp)
            have : words[i]? = some w := by
              rw [h3.1, List.getD_eq_getElem?_getD, List.getElem?_eq_getElem (by rw [words_length]; exact hi)]; rfl
            rw [(wordIndex_iff w i).2 this] at hw
            cases hw
      | some j =>
        simp only [Res.bind_eq_ok, Res.pure_eq, Res.ok.injEq]
        have hj := (wordIndex_iff w j).1 hw
        have hjl : j < 2048 := by
          obtain ⟨hl, _⟩ := List.getElem?_eq_some_iff.1 hj
          rwa [words_length] at hl
        have hjw : words.getD j [] = w := by rw [List.getD_eq_getElem?_getD, hj]; rfl
        constructor
        · rintro ⟨is', h1, rfl⟩
          obtain ⟨a1, a2, a3⟩ := (ih (n + 1) is').1 h1
          refine ⟨.inr ?_, ?_, ?_⟩
          · rcases a1 with rfl | a1
            · simp; omega
            · simp; omega
          · intro i hi
            rcases List.mem_cons.1 hi with rfl | hi
            · exact hjl
            · exact a2 i hi
          · rw [List.map_cons, hjw, ← a3]
        · rintro ⟨h1, h2, h3⟩
          cases is with
          | nil => simp at h3
          | cons i is =>
            simp only [List.map_cons, List.cons.injEq] at h3
            have hi := h2 i (by simp)
            have : words[i]? = some w := by
              rw [h3.1, List.getD_eq_getElem?_getD, List.getElem?_eq_getElem (by rw [words_length]; exact hi)]; rfl
            rw [(wordIndex_iff w i).2 this] at hw
            cases hw
            refine ⟨is, (ih (n + 1) is).2 ⟨?_, fun k hk => h2 k (by simp [hk]), h3.2⟩, rfl⟩
            right
            rcases h1 with h1 | h1
            · cases h1
            · simp at h1; omega
    · rw [if_neg hn]
      constructor
      · intro h; cases h
      · rintro ⟨h1, _, _⟩
        rcases h1 with h1 | h1
        · cases h1
        · simp at h1; omega

theorem readWords_noub (ws : List Bytes) : ∀ n, readWords ws n ≠ .ub := by
  induction ws with
  | nil => intro n; simp [readWords]
  | cons w ws ih =>
    intro n
    unfold readWords
    split
    · split
      · simp
      · intro h
        rw [Res.bind_eq_ub] at h
        rcases h with h | ⟨a, _, h⟩
        · exact ih _ h
        · cases h
    · simp

end Nostr.Hd
