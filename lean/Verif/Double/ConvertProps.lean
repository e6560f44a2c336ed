import Verif.Double.Convert
import Verif.Double.Props
import Verif.Filter.Props

/-!
# Property C191: numbers of texts that no integer is
-/

namespace Nostr.Double.Props
open Nostr Nostr.Json Nostr.Event Nostr.Event.Spec Nostr.Double Nostr.Double.Spec Nostr.Event.Props

theorem nearest_ge_pow {a j : Nat} (hj : 53 ≤ j) (h : 2 ^ j ≤ a) : 2 ^ j ≤ nearest a 1 := by
  have h0 : 2 ^ 53 ≤ a := Nat.le_trans (Nat.pow_le_pow_right (by decide) hj) h
  have hne : a ≠ 0 := by omega
  have hl : j ≤ a.log2 := (Nat.le_log2 hne).2 h
  unfold nearest
  rw [Nat.div_one, if_neg (by omega)]
  simp only [Nat.one_mul]
  obtain ⟨k, hk⟩ : ∃ k, a.log2 = k + 52 := ⟨a.log2 - 52, by omega⟩
  have h1 : 2 ^ (k + 52) ≤ a := hk ▸ Nat.log2_self_le hne
  rw [hk, Nat.add_sub_cancel]
  have h2 : 2 ^ 52 ≤ a / 2 ^ k := by
    rw [Nat.le_div_iff_mul_le (Nat.two_pow_pos k), ← Nat.pow_add, Nat.add_comm]
    exact h1
  have h3 : a / 2 ^ k ≤ roundDiv a (2 ^ k) := by
    unfold roundDiv
    split <;> omega
  calc 2 ^ j ≤ 2 ^ (52 + k) := Nat.pow_le_pow_right (by decide) (by omega)
    _ = 2 ^ 52 * 2 ^ k := Nat.pow_add ..
    _ ≤ _ := Nat.mul_le_mul_right _ (by omega)

theorem log2_eq {a k : Nat} (h1 : 2 ^ k ≤ a) (h2 : a < 2 ^ (k + 1)) : a.log2 = k := by
  have hne : a ≠ 0 := by have := Nat.two_pow_pos k; omega
  have := (Nat.le_log2 hne).2 h1
  have := (Nat.log2_lt hne).2 h2
  omega

theorem nearest_lt_iff (a : Nat) : nearest a 1 < 2 ^ 63 ↔ a < 2 ^ 63 - 512 := by
  rcases Nat.lt_or_ge a (2 ^ 62) with h | h
  · have := nearest_le a
    omega
  · rcases Nat.lt_or_ge a (2 ^ 63) with h1 | h1
    · unfold nearest
      rw [Nat.div_one, if_neg (by omega), log2_eq h h1]
      simp only [Nat.one_mul, roundDiv]
      split <;> omega
    · have := nearest_ge_pow (by decide) h1
      omega

theorem nearest_le_iff (a : Nat) : nearest a 1 ≤ 2 ^ 63 ↔ a ≤ 2 ^ 63 + 1024 := by
  rcases Nat.lt_or_ge a (2 ^ 62) with h | h
  · have := nearest_le a
    omega
  · rcases Nat.lt_or_ge a (2 ^ 63) with h1 | h1
    · unfold nearest
      rw [Nat.div_one, if_neg (by omega), log2_eq h h1]
      simp only [Nat.one_mul, roundDiv]
      split <;> omega
    · rcases Nat.lt_or_ge a (2 ^ 64) with h2 | h2
      · unfold nearest
        rw [Nat.div_one, if_neg (by omega), log2_eq h1 h2]
        simp only [Nat.one_mul, roundDiv]
        split <;> omega
      · have := nearest_ge_pow (by decide) h2
        omega

/-- The text of a decimal integer: a minus sign if `neg`, and digits. -/
def intText (neg : Bool) (ds : Bytes) : Bytes := (if neg then [0x2d] else []) ++ ds

theorem int64_intText (neg : Bool) {ds : Bytes} (hne : ds ≠ []) (hd : ∀ c ∈ ds, Num.isDigit c = true) :
    int64 read (intText neg ds) = if neg then -(nearest (Num.natOf ds) 1 : Int) else nearest (Num.natOf ds) 1 := by
  have hr : read (intText neg ds) = if neg then -(nearest (Num.natOf ds) 1 : Int) else nearest (Num.natOf ds) 1 := by
    cases neg
    · simpa [withSgn, intText] using read_plain (g := []) (Or.inl rfl) hne hd
    · simpa [withSgn, intText] using read_plain (g := [0x2d]) (Or.inr rfl) hne hd
  unfold int64
  cases hp : plainInt (intText neg ds) with
  | none => exact hr
  | some n =>
    rcases Nat.lt_or_ge 15 ds.length with hl | hl
    · rw [show plainInt (intText neg ds) = none from
        plainInt_long (g := if neg then [0x2d] else []) (by cases neg <;> simp [Sgn]) hd hl] at hp
      simp at hp
    · have h1 := natOf_lt ds hd
      have h2 : (10 : Nat) ^ ds.length ≤ 10 ^ 15 := Nat.pow_le_pow_right (by decide) hl
      rw [nearest_exact (by omega)]
      obtain ⟨d, r, rfl⟩ := List.exists_cons_of_ne_nil hne
      have ⟨d1, _⟩ := digit_head (hd d (by simp))
      have ha : (d :: r).all Num.isDigit = true := List.all_eq_true.2 hd
      cases neg
      · have : (some d == some (0x2d : UInt8)) = false := by simpa using d1
        simp only [plainInt, intText, Bool.false_eq_true, if_false, List.nil_append, List.head?_cons, this] at hp
        rw [if_pos ⟨hne, hl, ha⟩] at hp
        simpa using hp.symm
      · simp only [plainInt, intText, if_true, List.singleton_append, List.head?_cons, beq_self_eq_true, List.tail_cons] at hp
        rw [if_pos ⟨hne, hl, ha⟩] at hp
        simpa using hp.symm

/-- The value of a number text that is there is one of the type. -/
def InRange (j : Option Json) : Prop := ∀ t, j.bind asNum = some t → -2 ^ 63 ≤ int64 read t ∧ int64 read t ≤ 2 ^ 63 - 1

theorem convert64_ok {j : Option Json} (h : InRange j) : convert64 j = .ok () := by
  unfold convert64
  cases hj : j.bind asNum with
  | none => rfl
  | some t => simp only [convert, if_pos (h t hj)]; rfl

theorem convert64_ub {j : Option Json} (h : ¬ InRange j) : convert64 j = .ub := by
  unfold convert64
  cases hj : j.bind asNum with
  | none => exact absurd (fun t ht => by simp [hj] at ht) h
  | some t =>
    have : ¬ (-2 ^ 63 ≤ int64 read t ∧ int64 read t ≤ 2 ^ 63 - 1) := fun hc => h fun t' ht' => by
      rw [hj] at ht'; cases ht'; exact hc
    simp only [convert, if_neg this]; rfl

theorem inRange_int {j : Option Json} {neg : Bool} {ds : Bytes} (hne : ds ≠ []) (hd : ∀ c ∈ ds, Num.isDigit c = true)
    (h : j.bind asNum = some (intText neg ds)) : InRange j ↔ Fits neg (Num.natOf ds) := by
  have hv := int64_intText neg hne hd
  have h1 := nearest_lt_iff (Num.natOf ds)
  have h2 := nearest_le_iff (Num.natOf ds)
  have : InRange j ↔ -2 ^ 63 ≤ int64 read (intText neg ds) ∧ int64 read (intText neg ds) ≤ 2 ^ 63 - 1 := by
    constructor
    · intro hi; exact hi _ h
    · intro hi t ht; rw [h] at ht; cases ht; exact hi
  rw [this, hv]
  cases neg
  · simp only [Fits, Bool.false_eq_true, if_false]; omega
  · simp only [Fits, if_true]; omega

/-- **C191**, events, for every text: reading is undefined exactly if the text is a document whose id and key are well formed and whose
`created_at` is a number that no signed 64-bit integer is; in every other case it does what is stated of it elsewhere. -/
theorem C191_event (lax : Bool) (cfg : Option Config.Config) (s : Bytes) :
    (readEvent lax cfg s = .ub ∧ ∃ root i k, parse s = some root ∧ hexField (plat lax) root (c!"id") 32 zero.id = .ok i ∧
      hexField (plat lax) root (c!"pubkey") 32 zero.pubkey = .ok k ∧ ¬ InRange (get root (c!"created_at"))) ∨
    readEvent lax cfg s = fromJson (plat lax) Double.build cfg s := by
  unfold readEvent fromJson Double.build
  cases hp : parse s with
  | none => exact Or.inr rfl
  | some root =>
    simp only []
    unfold fromTree
    cases h1 : hexField (plat lax) root (c!"id") 32 zero.id with
    | err _ => exact Or.inr rfl
    | ub => exact Or.inr rfl
    | ok i =>
      cases h2 : hexField (plat lax) root (c!"pubkey") 32 zero.pubkey with
      | err _ => exact Or.inr rfl
      | ub => exact Or.inr rfl
      | ok k =>
        by_cases hr : InRange (get root (c!"created_at"))
        · right
          rw [convert64_ok hr]; rfl
        · left
          refine ⟨?_, root, i, k, rfl, h1, h2, hr⟩
          rw [convert64_ub hr]; rfl

/-- **C191**, events whose time is written as a decimal integer: reading does what is stated of it elsewhere if the integer is below
2^63 - 512 and not below -(2^63 + 1024); if id and key are well formed it is undefined for every other integer. Missing: larger numbers,
for which the property fails. -/
theorem C191_event_int_partial (lax : Bool) (cfg : Option Config.Config) {s : Bytes} {root : Json} {neg : Bool} {ds : Bytes}
    (hp : parse s = some root) (hne : ds ≠ []) (hd : ∀ c ∈ ds, Num.isDigit c = true)
    (ht : (get root (c!"created_at")).bind asNum = some (intText neg ds)) :
    (Fits neg (Num.natOf ds) → readEvent lax cfg s = fromJson (plat lax) Double.build cfg s) ∧
    (¬ Fits neg (Num.natOf ds) → (∃ i, hexField (plat lax) root (c!"id") 32 zero.id = .ok i) →
      (∃ k, hexField (plat lax) root (c!"pubkey") 32 zero.pubkey = .ok k) → readEvent lax cfg s = .ub) := by
  constructor
  · intro hf
    rcases C191_event lax cfg s with ⟨-, root', i, k, h1, -, -, h2⟩ | h
    · rw [hp] at h1
      cases h1
      exact absurd ((inRange_int hne hd ht).2 hf) h2
    · exact h
  · rintro hf ⟨i, hi⟩ ⟨k, hk⟩
    unfold readEvent
    rw [hp]
    simp only [hi, hk, convert64_ub fun hc => hf ((inRange_int hne hd ht).1 hc)]
    rfl

example : Fits false 1700000000 ∧ Fits true 62135596800 ∧ ¬ Fits false (10 ^ 19) := by decide

/-- The hypotheses are met. -/
example : ∃ root, parse (c!"{\"created_at\":-17}") = some root ∧ (get root (c!"created_at")).bind asNum = some (intText true (c!"17")) ∧
    hexField (plat false) root (c!"id") 32 zero.id = .ok zero.id := ⟨_, rfl, by decide +kernel, by decide +kernel⟩

/-- **C191**, filters, for every text: reading is undefined only if the text is a document with a `since` or `until` that no signed 64-bit
integer is; in every other case it does what is stated of it elsewhere. -/
theorem C191_filter (s : Bytes) :
    (readFilter s = .ub ∧ ∃ root, parse s = some root ∧ ¬ (InRange (get root (c!"since")) ∧ InRange (get root (c!"until")))) ∨
    readFilter s = Filter.parseFilter read s 0 := by
  unfold readFilter Filter.parseFilter
  simp only [Nat.lt_irrefl, gt_iff_lt, if_false]
  cases hp : parse s with
  | none => exact Or.inr rfl
  | some root =>
    simp only []
    unfold Filter.ofTree
    cases Filter.parseStrings (get root (c!"ids")) with
    | err _ => exact Or.inr rfl
    | ub => exact Or.inr rfl
    | ok _ =>
    cases Filter.parseStrings (get root (c!"authors")) with
    | err _ => exact Or.inr rfl
    | ub => exact Or.inr rfl
    | ok _ =>
    cases Filter.parseInts read (get root (c!"kinds")) with
    | err _ => exact Or.inr rfl
    | ub => exact Or.inr rfl
    | ok _ =>
    cases Filter.parseStrings (get root (c!"#e")) with
    | err _ => exact Or.inr rfl
    | ub => exact Or.inr rfl
    | ok _ =>
    cases Filter.parseStrings (get root (c!"#p")) with
    | err _ => exact Or.inr rfl
    | ub => exact Or.inr rfl
    | ok _ =>
    cases Filter.parseGeneric (Filter.members root) with
    | err _ => exact Or.inr rfl
    | ub => exact Or.inr rfl
    | ok _ =>
    by_cases h1 : InRange (get root (c!"since"))
    · by_cases h2 : InRange (get root (c!"until"))
      · right
        rw [convert64_ok h1, convert64_ok h2]; rfl
      · left
        refine ⟨?_, root, rfl, fun hc => h2 hc.2⟩
        rw [convert64_ok h1, convert64_ub h2]; rfl
    · left
      refine ⟨?_, root, rfl, fun hc => h1 hc.1⟩
      rw [convert64_ub h1]; rfl

/-- **C191**, filters whose times, if any, are decimal integers below 2^63 - 512 and not below -(2^63 + 1024): reading does what is stated
of it elsewhere. Missing: larger numbers, for which the property fails. -/
theorem C191_filter_int_partial {s : Bytes} {root : Json} (hp : parse s = some root)
    (h : ∀ key ∈ [c!"since", c!"until"], ∀ t, (get root key).bind asNum = some t →
      ∃ neg ds, t = intText neg ds ∧ ds ≠ [] ∧ (∀ c ∈ ds, Num.isDigit c = true) ∧ Fits neg (Num.natOf ds)) :
    readFilter s = Filter.parseFilter read s 0 := by
  have hr : ∀ key ∈ [c!"since", c!"until"], InRange (get root key) := by
    intro key hk t ht
    obtain ⟨neg, ds, rfl, h1, h2, h3⟩ := h key hk t ht
    exact (inRange_int h1 h2 ht).2 h3 _ ht
  rcases C191_filter s with ⟨-, root', h1, h2⟩ | h'
  · rw [hp] at h1
    cases h1
    exact absurd ⟨hr _ (by simp), hr _ (by simp)⟩ h2
  · exact h'

example : (readFilter (c!"{\"kinds\":[1],\"since\":1700000000,\"until\":1.8e9}")).isOk = true := by decide +kernel

/-- **C191**, the block height of a wallet: a number from 0 to 2^32 - 1 is delivered without its fraction, no number leaves the variable
alone, and every other number is undefined. -/
theorem C191_height {s : Bytes} {root : Json} (hp : parse s = some root) :
    ((get root (c!"block_height")).bind asNum = none → blockHeight s = .ok none) ∧
    ∀ t, (get root (c!"block_height")).bind asNum = some t →
      (0 ≤ int64 read t → int64 read t ≤ 2 ^ 32 - 1 → blockHeight s = .ok (some (int64 read t))) ∧
      (¬ (0 ≤ int64 read t ∧ int64 read t ≤ 2 ^ 32 - 1) → blockHeight s = .ub) := by
  unfold blockHeight
  rw [hp]
  refine ⟨fun h => by simp only [h], fun t ht => ⟨fun h1 h2 => ?_, fun h => ?_⟩⟩
  · simp only [ht, convert, if_pos (And.intro h1 h2)]; rfl
  · simp only [ht, convert, if_neg h]; rfl

example : blockHeight (c!"{\"block_height\":870000}") = .ok (some 870000) := by decide +kernel

/-- **C191 fails**: short texts anyone can send make reading an event, a filter or the block height undefined. -/
theorem C191_refuted (lax : Bool) (cfg : Option Config.Config) :
    readEvent lax cfg (c!"{\"created_at\":1e30}") = .ub ∧ readFilter (c!"{\"until\":1e19}") = .ub ∧
    readFilter (c!"{\"since\":-99999999999999999999}") = .ub ∧ blockHeight (c!"{\"block_height\":-1}") = .ub ∧
    blockHeight (c!"{\"block_height\":4294967296}") = .ub := by
  refine ⟨?_, by decide +kernel, by decide +kernel, by decide +kernel, by decide +kernel⟩
  rcases C191_event lax cfg (c!"{\"created_at\":1e30}") with ⟨h, -⟩ | h
  · exact h
  · have hp : parse (c!"{\"created_at\":1e30}") = some (.obj [(c!"created_at", .num (c!"1e30"))]) := by decide +kernel
    unfold readEvent
    rw [hp]
    have h1 : convert64 (get (.obj [(c!"created_at", .num (c!"1e30"))]) (c!"created_at")) = .ub := by decide +kernel
    simp only [h1]
    rfl

/-- **C191 fails** for the library's own texts: what it writes of an event of time 2^63 - 1 it cannot read. -/
theorem C191_own_refuted (lax : Bool) (cfg : Option Config.Config) :
    ∃ s, toJson Double.build (at_ (2 ^ 63 - 1)) = .ok s ∧ readEvent lax cfg s = .ub := by
  have w : WF (at_ (2 ^ 63 - 1)) := at_wf (by decide)
  obtain ⟨g1, g2⟩ := good_toTree_num (td := ofInt) (fr := format) w (tok_good (time_le w))
  refine ⟨_, rfl, ?_⟩
  have hp := parse_print true 0 _ g1 g2 [] (by simp [Stop])
  rw [List.append_nil] at hp
  show readEvent lax cfg (print true 0 (toTree ofInt format (at_ (2 ^ 63 - 1)))) = .ub
  unfold readEvent
  rw [hp]
  have g1 : get (toTree ofInt format (at_ (2 ^ 63 - 1))) (c!"id") = some (.str (Hex.hexEncode (at_ (2 ^ 63 - 1)).id)) := rfl
  have g2 : get (toTree ofInt format (at_ (2 ^ 63 - 1))) (c!"pubkey") = some (.str (Hex.hexEncode (at_ (2 ^ 63 - 1)).pubkey)) := rfl
  have g3 : convert64 (get (toTree ofInt format (at_ (2 ^ 63 - 1))) (c!"created_at")) = .ub := by
    show convert64 (some (.num (numTok ofInt format (2 ^ 63 - 1)))) = .ub
    decide +kernel
  simp only [hexField, g1, g2, Option.bind_some, asStr, hexToBytes_encode (plat lax).lax0x w.id,
    hexToBytes_encode (plat lax).lax0x w.pubkey, Res.bind_ok, g3]
  rfl

end Nostr.Double.Props
