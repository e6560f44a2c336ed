import Verif.Hd.Props

/-! # Property theorems: C66 (key derivation along a path), C112 (NIP-06 key pairs) -/

namespace Nostr.Hd.Props
open Nostr Nostr.Text Nostr.Hd Nostr.Hd.Spec

theorem memory4_htonl {i : Nat} (h : i < 2 ^ 32) : memory4 (htonl i) = ser32 i := by
  have e (a b : Nat) (hab : a % 256 = b % 256) : UInt8.ofNat a = UInt8.ofNat b := by
    apply UInt8.toNat_inj.1
    rw [UInt8.toNat_ofNat', UInt8.toNat_ofNat']
    exact hab
  have key (a b c d : Nat) (ha : a < 256) (hb : b < 256) (hc : c < 256) (hd : d < 256) :
      (a * 16777216 + b * 65536 + c * 256 + d) % 256 = d ∧ (a * 16777216 + b * 65536 + c * 256 + d) / 256 % 256 = c ∧
      (a * 16777216 + b * 65536 + c * 256 + d) / 65536 % 256 = b ∧
      (a * 16777216 + b * 65536 + c * 256 + d) / 16777216 % 256 = a := by omega
  obtain ⟨k1, k2, k3, k4⟩ := key (i % 256) (i / 256 % 256) (i / 65536 % 256) (i / 16777216 % 256)
    (Nat.mod_lt _ (by decide)) (Nat.mod_lt _ (by decide)) (Nat.mod_lt _ (by decide)) (Nat.mod_lt _ (by decide))
  unfold memory4 htonl ser32
  exact congr (congrArg _ (e _ _ k1)) (congr (congrArg _ (e _ _ k2)) (congr (congrArg _ (e _ _ k3))
    (congr (congrArg _ (e _ _ k4)) rfl)))

theorem hardened_iff {i : Nat} (h : i < 2 ^ 32) : i &&& 0x80000000 ≠ 0 ↔ 2 ^ 31 ≤ i := by
  constructor
  · intro hne
    apply Decidable.byContradiction
    intro hlt
    apply hne
    apply Nat.eq_of_testBit_eq
    intro k
    rw [Nat.testBit_and, show (0x80000000 : Nat) = 2 ^ 31 from rfl, Nat.testBit_two_pow, Nat.zero_testBit]
    by_cases hk : 31 = k
    · subst hk
      rw [Nat.testBit_lt_two_pow (by omega)]
      rfl
    · simp [hk]
  · intro hge h0
    have : (i &&& 0x80000000).testBit 31 = true := by
      rw [Nat.testBit_and, show (0x80000000 : Nat) = 2 ^ 31 from rfl, Nat.testBit_two_pow]
      have : i.testBit 31 = true := by
        rw [Nat.testBit_eq_decide_div_mod_eq, decide_eq_true_eq]
        omega
      rw [this]
      rfl
    rw [h0] at this
    simp at this

/-- **C66** (one step): deriving a child at any 32-bit index is BIP-32's private derivation. -/
theorem C66_derive (C : Crypto) (parent child : HdKey) (i : Nat) (hi : i < 2 ^ 32) :
    derive C parent i = .ok child ↔ IsChild C parent i child := by
  have hfin (data : Bytes) : deriveFinish C parent data = .ok child ↔
      ∃ I, C.hmac512 parent.chain data = some I ∧ C.tweakAdd parent.priv (I.take 32) = some child.priv ∧
        child.chain = (I.drop 32).take 32 ∧ C.xonly child.priv = some child.pub := by
    obtain ⟨cp, cpub, cc⟩ := child
    unfold deriveFinish
    cases h1 : C.hmac512 parent.chain data with
    | none => simp
    | some I =>
      cases h2 : C.tweakAdd parent.priv (I.take 32) with
      | none => simp [h2]
      | some c =>
        cases h3 : C.xonly c with
        | none =>
          simp only [h2, h3]
          constructor
          · intro h; cases h
          · rintro ⟨J, hJ, h4, _, h5⟩
            cases hJ
            rw [h2] at h4
            cases h4
            rw [h3] at h5
            cases h5
        | some p =>
          simp only [h2, h3]
          constructor
          · intro h
            simp only [Res.ok.injEq, HdKey.mk.injEq] at h
            obtain ⟨rfl, rfl, rfl⟩ := h
            exact ⟨I, rfl, h2, rfl, h3⟩
          · rintro ⟨J, hJ, h4, h5, h6⟩
            cases hJ
            rw [h2] at h4
            cases h4
            rw [h3] at h6
            cases h6
            rw [h5]
  unfold derive IsChild
  simp only
  rw [memory4_htonl hi]
  by_cases hh : 2 ^ 31 ≤ i
  · rw [if_pos ((hardened_iff hi).2 hh), hfin]
    simp only [hh, if_true]
    constructor
    · rintro ⟨I, h⟩; exact ⟨_, I, rfl, h⟩
    · rintro ⟨_, I, rfl, h⟩; exact ⟨I, h⟩
  · rw [if_neg (fun h => hh ((hardened_iff hi).1 h))]
    simp only [hh, if_false]
    cases hp : C.pubCompressed parent.priv with
    | none =>
      simp
    | some p =>
      simp only
      rw [hfin]
      constructor
      · rintro ⟨I, h⟩; exact ⟨_, I, ⟨p, rfl, rfl⟩, h⟩
      · rintro ⟨_, I, ⟨_, hq, rfl⟩, h⟩
        cases hq
        exact ⟨I, h⟩

theorem derive_noub (C : Crypto) (parent : HdKey) (i : Nat) : derive C parent i ≠ .ub := by
  unfold derive deriveFinish
  simp only
  repeat' split
  all_goals (intro h; cases h)

/-! ## Components -/

theorem component_text (n : Nat) (mark : Mark) (hn : n < 2 ^ 64) : component (Num.decNat n ++ mark.text) =
    if n % 2 ^ 32 < 2 ^ 31 then some (if mark = .none then n % 2 ^ 32 else n % 2 ^ 32 + 2 ^ 31) else none := by
  have hu : Num.strtoul (Num.decNat n) = (n, []) := by
    have := Num.strtoul_decNat (n := n) (rest := []) hn (by simp)
    simpa using this
  have hlast : ∀ c, (Num.decNat n).getLast? = some c → c ≠ 0x27 ∧ c ≠ 0x68 := by
    intro c hc
    have hd := Num.decNat_digits n c (List.mem_of_getLast? hc)
    rw [Num.isDigit_iff] at hd
    constructor
    · intro h; rw [h] at hd; revert hd; decide
    · intro h; rw [h] at hd; revert hd; decide
  have hor (a : Nat) (ha : a < 2 ^ 31) : a ||| 0x80000000 = a + 2 ^ 31 := by
    have := Nat.two_pow_add_eq_or_of_lt ha 1
    rw [Nat.or_comm]
    rw [show (0x80000000 : Nat) = 2 ^ 31 * 1 from rfl, ← this]
    omega
  have hpos := Num.decNat_pos n
  cases mark with
  | none =>
    have h0 : Num.decNat n ++ Mark.none.text = Num.decNat n := List.append_nil _
    rw [h0]
    unfold component
    have hb : (decide ((Num.decNat n).length > 0) && ((Num.decNat n).getLast? == some 0x27 ||
        (Num.decNat n).getLast? == some 0x68)) = false := by
      cases hl : (Num.decNat n).getLast? with
      | none => simp
      | some c => simp [hlast c hl]
    simp only [hb, Bool.false_eq_true, if_false, hu, if_true]
    by_cases h : n % 2 ^ 32 < 2 ^ 31
    · rw [if_neg (by simp; omega), if_pos h]
    · rw [if_pos (by omega), if_neg h]
  | apostrophe =>
    have h0 : Num.decNat n ++ Mark.apostrophe.text = Num.decNat n ++ [0x27] := rfl
    rw [h0]
    unfold component
    have hb : (decide ((Num.decNat n ++ [(0x27 : UInt8)]).length > 0) && ((Num.decNat n ++ [(0x27 : UInt8)]).getLast? == some 0x27 ||
        (Num.decNat n ++ [(0x27 : UInt8)]).getLast? == some 0x68)) = true := by simp
    simp only [hb, if_true, List.dropLast_concat, hu, reduceCtorEq, if_false]
    by_cases h : n % 2 ^ 32 < 2 ^ 31
    · rw [if_neg (by simp; omega), if_pos h, hor _ h]
    · rw [if_pos (by omega), if_neg h]
  | h =>
    have h0 : Num.decNat n ++ Mark.h.text = Num.decNat n ++ [0x68] := rfl
    rw [h0]
    unfold component
    have hb : (decide ((Num.decNat n ++ [(0x68 : UInt8)]).length > 0) && ((Num.decNat n ++ [(0x68 : UInt8)]).getLast? == some 0x27 ||
        (Num.decNat n ++ [(0x68 : UInt8)]).getLast? == some 0x68)) = true := by simp
    simp only [hb, if_true, List.dropLast_concat, hu, reduceCtorEq, if_false]
    by_cases h : n % 2 ^ 32 < 2 ^ 31
    · rw [if_neg (by simp; omega), if_pos h, hor _ h]
    · rw [if_pos (by omega), if_neg h]

/-- Any accepted component is a 32-bit index. -/
theorem component_lt {t : Bytes} {i : Nat} (h : component t = some i) : i < 2 ^ 32 := by
  unfold component at h
  simp only at h
  generalize Num.strtoul (if (decide (t.length > 0) && (t.getLast? == some 0x27 || t.getLast? == some 0x68)) = true then
    t.dropLast else t) = r at h
  split at h
  · cases h
  · simp only [Option.some.injEq] at h
    subst h
    split
    · exact Nat.or_lt_two_pow (Nat.mod_lt _ (by decide)) (by decide)
    · exact Nat.mod_lt _ (by decide)

/-- The text of a component. -/
def compText (c : Nat × Mark) : Bytes := Num.decNat c.1 ++ c.2.text

theorem compText_ok (c : Nat × Mark) : (0x2f : UInt8) ∉ compText c ∧ compText c ≠ [] := by
  constructor
  · intro h
    rcases List.mem_append.1 h with h | h
    · have := Num.decNat_digits _ _ h
      revert this; decide
    · cases hm : c.2 <;> rw [hm] at h <;> revert h <;> decide
  · intro h
    have := (List.append_eq_nil_iff.1 h).1
    exact Num.decNat_ne _ this

theorem join_slash (w : Bytes) (ws : List Bytes) : join 0x2f (w :: ws) = w ++ ws.flatMap fun x => [0x2f] ++ x := by
  induction ws generalizing w with
  | nil => simp [join]
  | cons x ws ih =>
    show w ++ 0x2f :: join 0x2f (x :: ws) = _
    rw [ih]
    simp

theorem derivePath_text (C : Crypto) (master : HdKey) (cs : List (Nat × Mark)) :
    derivePath C master (pathText cs) = pathLoop C (cs.map compText) master := by
  cases cs with
  | nil => rfl
  | cons c cs =>
    have hp : pathText (c :: cs) = 0x6d :: 0x2f :: join 0x2f ((c :: cs).map compText) := by
      rw [List.map_cons, join_slash, List.flatMap_map]
      unfold pathText
      rw [List.flatMap_cons]
      have hf : (cs.flatMap fun c => c!"/" ++ Num.decNat c.1 ++ c.2.text) = cs.flatMap fun c => [0x2f] ++ compText c := by
        congr 1
      rw [hf]
      show [0x6d] ++ ([0x2f] ++ Num.decNat c.1 ++ c.2.text ++ _) = _
      simp [compText]
    rw [hp]
    show pathLoop C (tokens 0x2f _) master = _
    rw [tokens_join]
    intro t ht
    obtain ⟨d, _, rfl⟩ := List.mem_map.1 ht
    exact compText_ok d

theorem pathLoop_iff (C : Crypto) : ∀ (cs : List (Nat × Mark)) (k k' : HdKey), (∀ c ∈ cs, c.1 < 2 ^ 31) →
    (pathLoop C (cs.map compText) k = .ok k' ↔ Descends C k (cs.map index) k') := by
  intro cs
  induction cs with
  | nil =>
    intro k k' _
    simp only [List.map_nil, pathLoop]
    constructor
    · intro h; cases h; exact .here _
    · intro h; cases h; rfl
  | cons c cs ih =>
    intro k k' hc
    have hcl := hc c (by simp)
    have hcomp : component (compText c) = some (index c) := by
      unfold compText
      rw [component_text _ _ (by omega), Nat.mod_eq_of_lt (by omega : c.1 < 2 ^ 32), if_pos hcl]
      rfl
    have hlt : index c < 2 ^ 32 := component_lt hcomp
    simp only [List.map_cons, pathLoop, hcomp]
    rw [Res.bind_eq_ok]
    constructor
    · rintro ⟨m, h1, h2⟩
      exact .step ((C66_derive C k m _ hlt).1 h1) ((ih m k' (fun d hd => hc d (by simp [hd]))).1 h2)
    · intro h
      cases h with
      | step h1 h2 =>
        exact ⟨_, (C66_derive C k _ _ hlt).2 h1, (ih _ k' (fun d hd => hc d (by simp [hd]))).2 h2⟩

/-- **C66** (the fold): a path written as numbers below 2³¹, each with or without a hardening mark, is derived
by BIP-32 steps along its indices in order, and only so. -/
theorem C66_fold_partial (C : Crypto) (master k : HdKey) (cs : List (Nat × Mark)) (h : ∀ c ∈ cs, c.1 < 2 ^ 31) :
    derivePath C master (pathText cs) = .ok k ↔ Descends C master (cs.map index) k := by
  rw [derivePath_text]
  exact pathLoop_iff C cs master k h

example : pathText [(44, .apostrophe), (1237, .h), (0, .none)] = c!"m/44'/1237h/0" := by decide +kernel
example : ∃ k, Descends toyCrypto ⟨List.replicate 32 1, List.replicate 32 2, List.replicate 32 3⟩
    ([(44, .apostrophe), (7, .none)].map index) k := by
  have h := C66_fold_partial toyCrypto ⟨List.replicate 32 1, List.replicate 32 2, List.replicate 32 3⟩
  have h2 : ∃ k, derivePath toyCrypto ⟨List.replicate 32 1, List.replicate 32 2, List.replicate 32 3⟩
      (pathText [(44, .apostrophe), (7, .none)]) = .ok k := by
    rw [derivePath_text]
    exact ⟨_, rfl⟩
  obtain ⟨k, hk⟩ := h2
  exact ⟨k, (h k _ (by decide)).1 hk⟩

/-- **C66** (no two in-range paths alias): the indices determine the numbers and which of them are hardened. -/
theorem C66_distinct (cs cs' : List (Nat × Mark)) (h : ∀ c ∈ cs, c.1 < 2 ^ 31) (h' : ∀ c ∈ cs', c.1 < 2 ^ 31) :
    cs.map index = cs'.map index ↔
      cs.map (fun c => (c.1, decide (c.2 = .none))) = cs'.map (fun c => (c.1, decide (c.2 = .none))) := by
  induction cs generalizing cs' with
  | nil => cases cs' <;> simp
  | cons c cs ih =>
    cases cs' with
    | nil => simp
    | cons d ds =>
      have h1 := h c (by simp)
      have h2 := h' d (by simp)
      simp only [List.map_cons, List.cons.injEq, ih ds (fun x hx => h x (by simp [hx])) (fun x hx => h' x (by simp [hx])),
        Prod.mk.injEq]
      refine and_congr_left fun _ => ?_
      unfold index
      by_cases hc : c.2 = .none <;> by_cases hd : d.2 = .none <;> simp only [hc, hd, if_true, if_false, decide_true, decide_false] <;>
        simp <;> omega

theorem pathLoop_noub (C : Crypto) : ∀ (ts : List Bytes) (k : HdKey), pathLoop C ts k ≠ .ub := by
  intro ts
  induction ts with
  | nil => intro k h; cases h
  | cons t ts ih =>
    intro k h
    unfold pathLoop at h
    split at h
    · cases h
    · rw [Res.bind_eq_ub] at h
      rcases h with h | ⟨m, _, h⟩
      · exact derive_noub _ _ _ h
      · exact ih _ h

theorem pathLoop_descends (C : Crypto) : ∀ (ts : List Bytes) (k k' : HdKey), pathLoop C ts k = .ok k' →
    ∃ is, ts.map component = is.map some ∧ (∀ i ∈ is, i < 2 ^ 32) ∧ Descends C k is k' := by
  intro ts
  induction ts with
  | nil => intro k k' h; cases h; exact ⟨[], rfl, by simp, .here _⟩
  | cons t ts ih =>
    intro k k' h
    unfold pathLoop at h
    cases hc : component t with
    | none => rw [hc] at h; cases h
    | some i =>
      rw [hc] at h
      rw [Res.bind_eq_ok] at h
      obtain ⟨m, h1, h2⟩ := h
      obtain ⟨is, e1, e2, e3⟩ := ih m k' h2
      have hi := component_lt hc
      refine ⟨i :: is, by simp [hc, e1], ?_, .step ((C66_derive C k m i hi).1 h1) e3⟩
      intro j hj
      rcases List.mem_cons.1 hj with rfl | hj
      · exact hi
      · exact e2 j hj

/-- **C66** (any text): whatever the path, a derived key is the master's descendant along some 32-bit indices,
one for each non-empty component after `m`, and the call stays within its buffers. -/
theorem C66_any_path (C : Crypto) (master : HdKey) (path : Bytes) :
    derivePath C master path ≠ .ub ∧
    ∀ k, derivePath C master path = .ok k → ∃ is : List Nat, (∀ i ∈ is, i < 2 ^ 32) ∧ Descends C master is k ∧
      is.length = (tokens 0x2f (path.drop 1)).length ∧ path.head? = some 0x6d := by
  unfold derivePath
  split
  · refine ⟨(fun h => by cases h), ?_⟩
    intro k h
    cases h
    exact ⟨[], by simp, .here _, by decide, rfl⟩
  · rename_i rest
    refine ⟨pathLoop_noub _ _ _, ?_⟩
    intro k h
    obtain ⟨is, e1, e2, e3⟩ := pathLoop_descends C _ _ _ h
    refine ⟨is, e2, e3, ?_, rfl⟩
    have hl := congrArg List.length e1
    simp only [List.length_map] at hl
    rw [← hl]
    show _ = (tokens 0x2f (0x2f :: rest)).length
    congr 1
  · exact ⟨(fun h => by cases h), (fun k h => by cases h)⟩

theorem pathLoop_reject (C : Crypto) (k : HdKey) : ∀ (ts : List Bytes), (∃ t ∈ ts, component t = none) → ∀ k0, pathLoop C ts k0 ≠ .ok k := by
  intro ts hex k0 h
  obtain ⟨is, e1, _⟩ := pathLoop_descends C _ _ _ h
  obtain ⟨t, ht, hn⟩ := hex
  have : component t ∈ is.map some := by rw [← e1]; exact List.mem_map_of_mem ht
  rw [hn] at this
  simp at this

/-- **C66** (out of range, the part that holds): a path with a component from 2³¹ up to 2³² - 1 is rejected,
with or without a mark. -/
theorem C66_out_of_range_partial (C : Crypto) (master k : HdKey) (cs : List (Nat × Mark)) (c : Nat × Mark) (hc : c ∈ cs)
    (h1 : 2 ^ 31 ≤ c.1) (h2 : c.1 < 2 ^ 32) : derivePath C master (pathText cs) ≠ .ok k := by
  rw [derivePath_text]
  apply pathLoop_reject C k _ ⟨compText c, List.mem_map_of_mem hc, ?_⟩
  unfold compText
  rw [component_text _ _ (by omega), Nat.mod_eq_of_lt h2, if_neg (by omega)]

example : (2147483648, Mark.apostrophe) ∈ [((44 : Nat), Mark.none), (2147483648, Mark.apostrophe)] := by decide

/-- **C66** as stated is false: out-of-range numbers alias in-range ones (the number is reduced modulo 2³²),
an empty component with a mark is hardened 0, and a negative number is accepted. -/
theorem C66_alias_refuted (C : Crypto) (master : HdKey) :
    derivePath C master (c!"m/4294967296") = derivePath C master (c!"m/0") ∧
    (∀ cs cs' : List (Nat × Mark), (∀ c ∈ cs, c.1 < 2 ^ 64) → cs'.map (fun c => (c.1, c.2)) = cs.map (fun c => (c.1 % 2 ^ 32, c.2)) →
      derivePath C master (pathText cs) = derivePath C master (pathText cs')) ∧
    derivePath C master (c!"m/'") = derivePath C master (c!"m/0'") ∧
    derivePath C master (c!"m/-4294967295") = derivePath C master (c!"m/1") ∧
    derivePath C master (c!"m//7/") = derivePath C master (c!"m/7") := by
  have one (t t' : Bytes) (h : component t = component t') (k : HdKey) : pathLoop C [t] k = pathLoop C [t'] k := by
    simp only [pathLoop, h]
  have red (path path' : Bytes) (t t' : Bytes) (h1 : path = 0x6d :: 0x2f :: t) (h2 : path' = 0x6d :: 0x2f :: t')
      (u u' : Bytes) (h3 : tokens 0x2f t = [u]) (h4 : tokens 0x2f t' = [u']) (h5 : component u = component u') :
      derivePath C master path = derivePath C master path' := by
    subst h1 h2
    show pathLoop C (tokens 0x2f t) master = pathLoop C (tokens 0x2f t') master
    rw [h3, h4]
    exact one _ _ h5 _
  refine ⟨red _ _ (c!"4294967296") (c!"0") rfl rfl (c!"4294967296") (c!"0") (by decide) (by decide) (by decide +kernel), ?_,
    red _ _ (c!"'") (c!"0'") rfl rfl (c!"'") (c!"0'") (by decide) (by decide) (by decide +kernel),
    red _ _ (c!"-4294967295") (c!"1") rfl rfl (c!"-4294967295") (c!"1") (by decide) (by decide) (by decide +kernel),
    red _ _ (c!"/7/") (c!"7") rfl rfl (c!"7") (c!"7") (by decide) (by decide) rfl⟩
  intro cs cs' hcs hmap
  rw [derivePath_text, derivePath_text]
  have hid : cs' = cs.map (fun c => (c.1 % 2 ^ 32, c.2)) := by
    rw [← hmap]; simp
  subst hid
  clear hmap
  have hcomp : ∀ c ∈ cs, component (compText c) = component (compText (c.1 % 2 ^ 32, c.2)) := by
    intro c hc
    unfold compText
    rw [component_text _ _ (hcs c hc), component_text _ _ (by omega)]
    simp
  clear hcs red one
  induction cs generalizing master with
  | nil => rfl
  | cons c cs ih =>
    simp only [List.map_cons, pathLoop, hcomp c (by simp)]
    cases component (compText (c.1 % 2 ^ 32, c.2)) with
    | none => rfl
    | some i =>
      simp only
      congr 1
      funext m
      exact ih m (fun d hd => hcomp d (by simp [hd]))

/-! ## C112 -/

/-- **C66** (the master key): a seed gives a master key exactly when it has 16 to 64 bytes and BIP-32 gives one. -/
theorem C66_master (C : Crypto) (seed : Bytes) (k : HdKey) :
    fromSeed C seed = .ok k ↔ 16 ≤ seed.length ∧ seed.length ≤ 64 ∧ IsMaster C seed k := by
  by_cases hl : seed.length < 16 ∨ seed.length > 64
  · unfold fromSeed
    rw [if_pos hl]
    constructor
    · intro h; cases h
    · intro h; omega
  suffices h : fromSeed C seed = .ok k ↔ IsMaster C seed k by
    rw [h]; exact ⟨fun h => ⟨by omega, by omega, h⟩, fun h => h.2.2⟩
  obtain ⟨kp, kpub, kc⟩ := k
  unfold fromSeed IsMaster
  rw [if_neg hl]
  cases C.hmac512 (c!"Bitcoin seed") seed with
  | none => simp
  | some I =>
    simp only
    cases h3 : C.xonly (I.take 32) with
    | none =>
      constructor
      · intro h; cases h
      · rintro ⟨J, hJ, h1, _, h2⟩
        cases hJ
        subst h1
        rw [h3] at h2
        cases h2
    | some p =>
      constructor
      · intro h
        simp only [Res.ok.injEq, HdKey.mk.injEq] at h
        obtain ⟨rfl, rfl, rfl⟩ := h
        exact ⟨I, rfl, rfl, rfl, h3⟩
      · rintro ⟨J, hJ, h1, h4, h2⟩
        cases hJ
        subst h1 h4
        rw [h3] at h2
        cases h2
        rfl

theorem fromSeed_iff (C : Crypto) (seed : Bytes) (k : HdKey) (h : seed.length = 64) :
    fromSeed C seed = .ok k ↔ IsMaster C seed k := by
  rw [C66_master]; exact ⟨fun h => h.2.2, fun h' => ⟨by omega, by omega, h'⟩⟩

theorem toSeed_length (C : Crypto) (hP : ∀ p s r n out, C.pbkdf2 p s r n = some out → out.length = n) (m : Bytes)
    (pass : Option Bytes) (seed : Bytes) (h : toSeed C m pass = .ok seed) : seed.length = 64 := by
  have hrun : ∀ m p, toSeed.run C m p = .ok seed → seed.length = 64 := by
    intro m p h
    unfold toSeed.run at h
    split at h
    · cases h
    · rename_i s hs
      cases h
      exact hP _ _ _ _ _ hs
  unfold toSeed at h
  rw [Res.bind_eq_ok] at h
  obtain ⟨_, _, h⟩ := h
  repeat' split at h
  all_goals first
    | cases h
    | exact hrun _ _ h

/-- **C112**: the key pair of a mnemonic is the one NIP-06 prescribes: the key at `m/44'/1237'/account'/0/0`
below the master key of the BIP-39 seed; accounts of 2³¹ and above are refused. -/
theorem C112_keypair (C : Crypto) (hP : ∀ p s r n out, C.pbkdf2 p s r n = some out → out.length = n)
    (m : Bytes) (pass : Option Bytes) (account : Nat) (ha : account < 2 ^ 32) (priv pub : Bytes) :
    toKeypairOf C m pass account = .ok (priv, pub) ↔
      account < 2 ^ 31 ∧ ∃ seed master chain, toSeed C m pass = .ok seed ∧ IsMaster C seed master ∧
        Descends C master [44 + 2 ^ 31, 1237 + 2 ^ 31, account + 2 ^ 31, 0, 0] ⟨priv, pub, chain⟩ := by
  let cs : List (Nat × Mark) := [(44, .apostrophe), (1237, .apostrophe), (account, .apostrophe), (0, .none), (0, .none)]
  have hpath : c!"m/44'/1237'/" ++ Num.decNat account ++ c!"'/0/0" = pathText cs := by
    have h44 : Num.decNat 44 = c!"44" := by decide +kernel
    have h1237 : Num.decNat 1237 = c!"1237" := by decide +kernel
    have h0 : Num.decNat 0 = c!"0" := by decide +kernel
    show _ = [0x6d] ++ List.flatMap _ [_, _, _, _, _]
    simp only [List.flatMap_cons, List.flatMap_nil, h44, h1237, h0]
    simp [Mark.text]
  have hlen : (pathText cs).length ≤ 63 := by
    rw [← hpath]
    have := Num.decNat_length (n := account) (k := 10) (by decide) (by omega)
    simp only [List.length_append]
    have h1 : (c!"m/44'/1237'/").length = 12 := by decide
    have h2 : (c!"'/0/0").length = 5 := by decide
    omega
  unfold toKeypairOf
  simp only [hpath, List.take_of_length_le hlen]
  rw [Res.bind_eq_ok]
  constructor
  · rintro ⟨seed, h1, h⟩
    rw [Res.bind_eq_ok] at h
    obtain ⟨master, h2, h⟩ := h
    rw [Res.bind_eq_ok] at h
    obtain ⟨k, h3, h⟩ := h
    have hlt : account < 2 ^ 31 := by
      apply Decidable.byContradiction
      intro hge
      exact C66_out_of_range_partial C master k cs (account, .apostrophe) (by simp [cs]) (by simp only; omega) ha h3
    refine ⟨hlt, seed, master, k.chain, h1, (fromSeed_iff C seed master (toSeed_length C hP m pass seed h1)).1 h2, ?_⟩
    have hd := (C66_fold_partial C master k cs (by
      intro c hc
      simp only [cs, List.mem_cons, List.not_mem_nil, or_false] at hc
      rcases hc with rfl | rfl | rfl | rfl | rfl <;> simp only <;> omega)).1 h3
    simp only [toKeypair, Res.pure_eq, Res.ok.injEq, Prod.mk.injEq] at h
    obtain ⟨rfl, rfl⟩ := h
    exact hd
  · rintro ⟨hlt, seed, master, chain, h1, h2, h3⟩
    refine ⟨seed, h1, ?_⟩
    rw [Res.bind_eq_ok]
    refine ⟨master, (fromSeed_iff C seed master (toSeed_length C hP m pass seed h1)).2 h2, ?_⟩
    rw [Res.bind_eq_ok]
    refine ⟨_, (C66_fold_partial C master _ cs (by
      intro c hc
      simp only [cs, List.mem_cons, List.not_mem_nil, or_false] at hc
      rcases hc with rfl | rfl | rfl | rfl | rfl <;> simp only <;> omega)).2 h3, rfl⟩

/-- The toy instance delivers as many bytes as asked, and a key pair results for account 5. -/
example : (∀ p s r n out, toyCrypto.pbkdf2 p s r n = some out → out.length = n) ∧
    ∃ kp, toKeypairOf toyCrypto
      (c!"abandon abandon abandon abandon abandon abandon abandon abandon abandon abandon abandon abandon") none 5 = .ok kp := by
  constructor
  · intro p s r n out h
    simp only [toyCrypto, Option.some.injEq] at h
    rw [← h]
    simp only [List.length_take, List.length_append, List.length_replicate]
    omega
  · have h1 : validate toyCrypto
        (c!"abandon abandon abandon abandon abandon abandon abandon abandon abandon abandon abandon abandon") = .ok () := by
      decide +kernel
    unfold toKeypairOf
    rw [toSeed_ascii toyCrypto rfl _ none h1 (by decide +kernel) rfl]
    exact ⟨_, rfl⟩

end Nostr.Hd.Props
