import Verif.Double.ConvertProps
import Verif.Nip47.Params

/-!
# Property C192: amounts of wallet commands
-/

namespace Nostr.Double.Props
open Nostr Nostr.Json Nostr.Event Nostr.Event.Spec Nostr.Double Nostr.Double.Spec Nostr.Nip47 Nostr.Nip47.Props Nostr.Nip47.Spec

/-- A reader that takes the JSON number for a double and converts that to an integer gets `n`. -/
def IsNumber (a : Json) (n : Nat) : Prop := ∃ t, a = .num t ∧ int64 read t = n

/-- The JSON number stands for `n` if `n` survives; it stands for something else if `n` does not and is below 2^53 or odd. -/
def Carries (a : Json) (n : Nat) : Prop :=
  (Survives n → IsNumber a n) ∧ (¬ Survives n → n < 2 ^ 53 ∨ n % 2 = 1 → ¬ IsNumber a n)

theorem carries {n : Nat} (h : n < 2 ^ 64) : Carries (.num (numTok ofInt format n)) n := by
  have e : ∀ m : Nat, IsNumber (.num (numTok ofInt format n)) m ↔ int64 read (numTok ofInt format n) = m := by
    intro m
    constructor
    · rintro ⟨t, ht, hm⟩; cases ht; exact hm
    · intro hm; exact ⟨_, rfl, hm⟩
  refine ⟨fun hs => (e n).2 (survives_back hs), fun hs hc hi => ?_⟩
  have hi := (e n).1 hi
  rcases Nat.lt_or_ge n (2 ^ 53) with h1 | h1
  · have := (back_iff (n := (n : Int)) (by simpa using h1)).1 hi
    unfold Survives at hs
    rw [Int.natAbs_natCast] at hs this
    omega
  · have := (tok_big64 (n := (n : Int)) (by simpa using h1) (by simp; omega)).2
    rw [hi] at this
    omega

theorem scalar_tok {n : Nat} (h : n < 2 ^ 64) : Scalar (.num (numTok ofInt format n)) :=
  ⟨tok_good64 (by simp; omega), rfl⟩

/-- C192 (part): the amount of a payment is what the command carries, exactly if it survives. Missing: amounts that do not, of 2^52
millisatoshi (45035 bitcoin) and more. -/
theorem C192_pay_invoice_partial {invoice : Bytes} {n : Nat} (hi : CStr invoice) (hn : n < 2 ^ 64) :
    ∃ a, parse (payInvoice ofInt format invoice (some n)) = some (.obj [(c!"invoice", .str invoice), (c!"amount", a)]) ∧ Carries a n := by
  refine ⟨.num (numTok ofInt format n), ?_, carries hn⟩
  unfold payInvoice
  exact flat_back (flat_cons (by decide) (scalar_str hi) (flat_cons (by decide) (scalar_tok hn) (by simp)))

/-- C192 (part) for the amount of an invoice to be made. -/
theorem C192_make_invoice_partial {n : Nat} {descr hash : Option Bytes} (h0 : n ≠ 0) (hn : n < 2 ^ 64) (hd : ∀ s ∈ descr, CStr s)
    (hh : ∀ s ∈ hash, CStr s) {expiry : Option Nat} (he : ∀ k : Nat, k ∈ expiry → k < 2 ^ 32) :
    ∃ out a, makeInvoice ofInt format n descr hash expiry = .ok out ∧ parse out =
      some (.obj ((c!"amount", a) :: (opt (c!"description") .str descr ++ opt (c!"description_hash") .str hash ++
        opt (c!"expiry") (fun n => number (n : Nat)) expiry))) ∧ Carries a n := by
  have hx : ∀ k : Int, k ∈ (expiry.map fun (n : Nat) => (n : Int)) → Exact k := by
    intro k hk
    obtain ⟨m, hm, rfl⟩ := Option.map_eq_some_iff.1 hk
    have := he m hm
    unfold Exact
    omega
  refine ⟨_, .num (numTok ofInt format n), if_neg h0, ?_, carries hn⟩
  rw [numField_eq ofInt format _ hx, opt_nat, strField_eq, strField_eq]
  refine flat_back (flat_cons (by decide) (scalar_tok hn) (flat_append (flat_append
    (flat_opt (by decide) fun s hs => scalar_str (hd s hs)) (flat_opt (by decide) fun s hs => scalar_str (hh s hs)))
    (flat_opt (by decide) fun k hk => scalar_number ?_)))
  have := he k hk
  omega

/-- The JSON object of a record of a payment to a key: the value as it is, and the type, which stands for the number if that survives. -/
def IsRecord (p : Int × Bytes) (j : Json) : Prop :=
  ∃ t, j = .obj [(c!"type", .num t), (c!"value", .str p.2)] ∧ (Survives p.1 → int64 read t = p.1)

theorem record_tree {p : Int × Bytes} (h1 : -2 ^ 63 ≤ p.1) (h2 : p.1 < 2 ^ 63) (hv : CStr p.2) :
    IsRecord p (tlvTree ofInt format (Num.decInt p.1, p.2)) ∧ Good (tlvTree ofInt format (Num.decInt p.1, p.2)) ∧
      height (tlvTree ofInt format (Num.decInt p.1, p.2)) ≤ 1 := by
  have hs := Num.strtol_decInt (i := p.1) (rest := []) h1 (by omega) (by simp)
  rw [List.append_nil] at hs
  unfold tlvTree
  rw [hs]
  refine ⟨⟨_, rfl, survives_back⟩, ?_, by simp [height, heightM]⟩
  simp only [Good, GoodM]
  exact ⟨by decide, tok_good (by omega), by decide, hv, trivial⟩

/-- C192 (part) for payments to a key, with any list of records. -/
theorem C192_keysend_partial {n : Nat} {pubkey : Bytes} {preimage : Option Bytes} {l : List (Int × Bytes)} (h0 : n ≠ 0) (hn : n < 2 ^ 64)
    (hp : CStr pubkey) (hi : ∀ s ∈ preimage, CStr s) (hl : ∀ p ∈ l, -2 ^ 63 ≤ p.1 ∧ p.1 < 2 ^ 63 ∧ CStr p.2) :
    ∃ out a js, payKeysend ofInt format n pubkey preimage (recordTexts l) = .ok out ∧
      parse out = some (.obj ((c!"amount", a) :: (c!"pubkey", .str pubkey) :: (opt (c!"preimage") .str preimage ++
        (if l = [] then [] else [(c!"tlv_records", .arr js)])))) ∧ Carries a n ∧
      js.length = l.length ∧ ∀ (i : Nat) (p : Int × Bytes) (j : Json), l[i]? = some p → js[i]? = some j → IsRecord p j := by
  have e : tlvField ofInt format (recordTexts l) = if l = [] then [] else
      [(c!"tlv_records", .arr (l.map fun p => tlvTree ofInt format (Num.decInt p.1, p.2)))] := by
    unfold tlvField
    cases l with
    | nil => rfl
    | cons p l => rw [if_neg (by simp [recordTexts]), if_neg (by simp), tlvPairs_texts, List.map_map]; rfl
  refine ⟨_, .num (numTok ofInt format n), l.map fun p => tlvTree ofInt format (Num.decInt p.1, p.2), if_neg h0, ?_, carries hn, by simp, ?_⟩
  · rw [strField_eq, e]
    refine print_back ?_ ?_
    · intro p hp'
      simp only [List.mem_cons, List.mem_append] at hp'
      rcases hp' with rfl | rfl | hp' | hp'
      · exact ⟨(by decide : CStr (c!"amount")), (scalar_tok hn).1⟩
      · exact ⟨(by decide : CStr (c!"pubkey")), hp⟩
      · have := flat_opt (name := c!"preimage") (f := .str) (by decide) (fun s hs => scalar_str (hi s hs)) p hp'
        exact ⟨this.1, this.2.1⟩
      · split at hp'
        · simp at hp'
        · simp only [List.mem_singleton] at hp'
          subst hp'
          refine ⟨(by decide : CStr (c!"tlv_records")), ?_⟩
          simp only [Good]
          refine (goodL_iff _).2 fun j hj => ?_
          obtain ⟨q, hq, rfl⟩ := List.mem_map.1 hj
          obtain ⟨h1, h2, h3⟩ := hl q hq
          exact (record_tree h1 h2 h3).2.1
    · intro p hp'
      simp only [List.mem_cons, List.mem_append] at hp'
      rcases hp' with rfl | rfl | hp' | hp'
      · simp [height]
      · simp [height]
      · have := flat_opt (name := c!"preimage") (f := .str) (by decide) (fun s hs => scalar_str (hi s hs)) p hp'
        rw [this.2.2]; omega
      · split at hp'
        · simp at hp'
        · simp only [List.mem_singleton] at hp'
          subst hp'
          simp only [height]
          have : heightL (l.map fun p => tlvTree ofInt format (Num.decInt p.1, p.2)) ≤ 1 := heightL_le fun j hj => by
            obtain ⟨q, hq, rfl⟩ := List.mem_map.1 hj
            obtain ⟨h1, h2, h3⟩ := hl q hq
            exact (record_tree h1 h2 h3).2.2
          omega
  · intro i p j hp' hj
    rw [List.getElem?_map, hp', Option.map_some, Option.some.injEq] at hj
    rw [← hj]
    obtain ⟨h1, h2, h3⟩ := hl p (List.mem_of_getElem? hp')
    exact (record_tree h1 h2 h3).1

/-- The JSON object of one of several payments; an amount of 0 is left out. -/
inductive IsPay (p : Pay) : Json → Prop
  | free : p.amount = 0 → IsPay p (.obj (opt (c!"id") .str p.id ++ [(c!"invoice", .str p.invoice)]))
  | amount {a : Json} : p.amount ≠ 0 → Carries a p.amount →
      IsPay p (.obj (opt (c!"id") .str p.id ++ [(c!"invoice", .str p.invoice)] ++ [(c!"amount", a)]))

/-- C192 (part) for several payments at once: one object for each, in order. -/
theorem C192_multi_partial {l : List Pay} (h : l ≠ []) (hl : ∀ p ∈ l, p.amount < 2 ^ 64 ∧ CStr p.invoice ∧ ∀ s ∈ p.id, CStr s) :
    ∃ out js, multiPay ofInt format l = .ok out ∧ parse out = some (.obj [(c!"invoices", .arr js)]) ∧
      js.length = l.length ∧ ∀ (i : Nat) (p : Pay) (j : Json), l[i]? = some p → js[i]? = some j → IsPay p j := by
  have hf : ∀ p ∈ l, IsPay p (payTree ofInt format p) ∧ Good (payTree ofInt format p) ∧ height (payTree ofInt format p) ≤ 1 := by
    intro p hp
    obtain ⟨h1, h2, h3⟩ := hl p hp
    unfold payTree
    rw [strField_eq]
    have hflat : ∀ q ∈ opt (c!"id") Json.str p.id ++ [(c!"invoice", Json.str p.invoice)] ++
        (if p.amount > 0 then [(c!"amount", Json.num (numTok ofInt format p.amount))] else []), CStr q.1 ∧ Scalar q.2 := by
      refine flat_append (flat_append (flat_opt (by decide) fun s hs => scalar_str (h3 s hs))
        (flat_cons (by decide) (scalar_str h2) (by simp))) ?_
      split
      · exact flat_cons (by decide) (scalar_tok h1) (by simp)
      · simp
    refine ⟨?_, ?_, ?_⟩
    · split
      · exact .amount (by omega) (carries h1)
      · rw [List.append_nil]; exact .free (by omega)
    · simp only [Good]; exact (goodM_iff _).2 fun q hq => ⟨(hflat q hq).1, (hflat q hq).2.1⟩
    · simp only [height]
      have := heightM_le (k := 0) fun q hq => by rw [(hflat q hq).2.2]; omega
      omega
  refine ⟨_, l.map (payTree ofInt format), if_neg h, ?_, ?_⟩
  · refine print_back ?_ ?_
    · intro p hp
      simp only [List.mem_singleton] at hp
      subst hp
      refine ⟨(by decide : CStr (c!"invoices")), ?_⟩
      simp only [Good]
      refine (goodL_iff _).2 fun j hj => ?_
      obtain ⟨q, hq, rfl⟩ := List.mem_map.1 hj
      exact (hf q hq).2.1
    · intro p hp
      simp only [List.mem_singleton] at hp
      subst hp
      simp only [height]
      have : heightL (l.map (payTree ofInt format)) ≤ 1 := heightL_le fun j hj => by
        obtain ⟨q, hq, rfl⟩ := List.mem_map.1 hj
        exact (hf q hq).2.2
      omega
  · refine ⟨by simp, fun i p j hp hj => ?_⟩
    rw [List.getElem?_map, hp, Option.map_some, Option.some.injEq] at hj
    rw [← hj]
    exact (hf p (List.mem_of_getElem? hp)).1

/-- C192 is false: of two payments one millisatoshi apart, one command carries the amount of the other. -/
theorem C192_amount_refuted : payInvoice ofInt format (c!"lnbc1") (some (2 ^ 52 + 5)) = payInvoice ofInt format (c!"lnbc1") (some (2 ^ 52 + 4)) := by
  decide +kernel

theorem nearest_lt64 (a : Nat) : nearest a 1 < 2 ^ 64 ↔ a < 2 ^ 64 - 1024 := by
  rcases Nat.lt_or_ge a (2 ^ 63) with h | h
  · have := nearest_le a
    omega
  · rcases Nat.lt_or_ge a (2 ^ 64) with h1 | h1
    · unfold nearest
      rw [Nat.div_one, if_neg (by omega), log2_eq h h1]
      simp only [Nat.one_mul, roundDiv]
      split <;> omega
    · have := nearest_ge_pow (by decide) h1
      omega

theorem int64_dec (n : Nat) : int64 read (Num.decNat n) = nearest n 1 := by
  have := int64_intText false (Num.decNat_ne n) (Num.decNat_digits n)
  simpa [intText, Num.natOf_decNat] using this

/-- C192 (part): a balance is read exactly up to 2^53, as the nearest double up to 2^64, and beyond that the conversion is undefined. -/
theorem C192_balance_partial {root : Json} {n : Nat} (hg : Good root) (hh : height root ≤ nestingLimit)
    (h : get root (c!"balance") = some (.num (Num.decNat n))) (fmt : Bool) :
    (n ≤ 2 ^ 53 → parseBalance read (print fmt 0 root) = .ok n) ∧
    (2 ^ 53 < n → n % 2 = 1 → parseBalance read (print fmt 0 root) ≠ .ok n) ∧
    (parseBalance read (print fmt 0 root) = .ub ↔ 2 ^ 64 - 1024 ≤ n) := by
  have hp := parse_print fmt 0 root hg hh [] (by intro c hc; simp at hc)
  rw [List.append_nil] at hp
  have e : parseBalance read (print fmt 0 root) = if nearest n 1 < 2 ^ 64 then .ok (nearest n 1) else .ub := by
    unfold parseBalance
    rw [hp]
    simp only [h, Option.bind_some, asNum, toU64, int64_dec]
    split
    · rename_i hc
      rw [if_neg (by omega)]
    · rename_i hc
      rw [if_pos (by omega), Int.toNat_natCast]
  have h64 := nearest_lt64 n
  rw [e]
  refine ⟨fun hn => ?_, fun h1 h2 => ?_, ?_⟩
  · have hx : nearest n 1 = n := by
      rcases Nat.lt_or_ge n (2 ^ 53) with h1 | h1
      · exact nearest_exact h1
      · have : n = 2 ^ 53 := by omega
        subst this
        decide +kernel
    rw [hx, if_pos (by omega)]
  · have := nearest_even (a := n) (by omega)
    split
    · simp only [ne_eq, Res.ok.injEq]
      omega
    · simp
  · split <;> simp <;> omega

example : ∃ root, Good root ∧ height root ≤ nestingLimit ∧ get root (c!"balance") = some (.num (Num.decNat (2 ^ 53))) :=
  ⟨.obj [(c!"balance", .num (Num.decNat (2 ^ 53)))], by simp only [Good, GoodM]; exact ⟨by decide, Event.goodNum_decNat (by decide), trivial⟩,
    by decide +kernel, by decide +kernel⟩

/-- An amount of 16 digits that survives, and one that does not. -/
example : Survives (2 ^ 52 + 4 : Nat) ∧ ¬ Survives (2 ^ 52 + 5 : Nat) := by decide

/-- Records with a type of ten digits, as wallets use them, meet the hypotheses of `C192_keysend_partial`; the command carries them. -/
example : (∀ p ∈ ([(5482373484, c!"00ff"), (-1, c!"")] : List (Int × Bytes)), -2 ^ 63 ≤ p.1 ∧ p.1 < 2 ^ 63 ∧ CStr p.2) ∧
    payKeysend ofInt format 1000 (c!"02ab") none (recordTexts [(5482373484, c!"00ff"), (-1, c!"")]) =
      .ok (c!"{\"amount\":1000,\"pubkey\":\"02ab\",\"tlv_records\":[{\"type\":5482373484,\"value\":\"00ff\"},{\"type\":-1,\"value\":\"\"}]}") := by
  constructor
  · decide
  · decide +kernel

end Nostr.Double.Props
