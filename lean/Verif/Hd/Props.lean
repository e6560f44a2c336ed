import Verif.Hd.Lemmas

/-! # Property theorems: C64, C65, C67 (mnemonics) -/

namespace Nostr.Hd.Props
open Nostr Nostr.Text Nostr.Hd Nostr.Hd.Spec

/-! ## C65 -/

/-- **C65**: the lookup finds every listed word at its place and nothing else. -/
theorem C65_lookup (w : Bytes) :
    (∀ i, wordIndex w = some i ↔ words[i]? = some w) ∧ (wordIndex w = none ↔ w ∉ words) := by
  refine ⟨wordIndex_iff w, ?_⟩
  constructor
  · intro h hm
    obtain ⟨i, hi⟩ := List.mem_iff_getElem?.1 hm
    rw [(wordIndex_iff w i).2 hi] at h
    cases h
  · intro h
    cases hw : wordIndex w with
    | none => rfl
    | some i => exact absurd (List.mem_iff_getElem?.2 ⟨i, (wordIndex_iff w i).1 hw⟩) h

example : wordIndex (c!"zoo") = some 2047 ∧ wordIndex (c!"abandon") = some 0 ∧ wordIndex (c!"Zoo") = none ∧
    wordIndex [] = none := by decide +kernel

/-- **C65** (the table): 2048 words, all different, in lower case and three to eight letters long. -/
theorem C65_table : words.length = 2048 ∧ words.Nodup ∧
    ∀ w ∈ words, 3 ≤ w.length ∧ w.length ≤ 8 ∧ ∀ c ∈ w, 97 ≤ c ∧ c ≤ 122 := by
  refine ⟨words_length, ?_, fun w hw => words_plain hw⟩
  refine List.Pairwise.imp ?_ words_sorted
  intro a b hab e
  rw [strcmp_zero.2 e] at hab
  omega

/-! ## The checksum -/

theorem checkSum_iff (C : Crypto) (hC : Sha C.sha256) (e : Bytes) (eb cs : Nat) (hcs : cs ≤ 8) (hl : eb < e.length) :
    checkSum C e eb cs = .ok () ↔
      ((flat 8 e).drop (8 * eb)).take cs = (flat 8 (C.sha256 (e.take eb))).take cs := by
  unfold checkSum
  simp only
  generalize hh : C.sha256 (e.take eb) = hash
  have hlen : hash.length = 32 := by rw [← hh]; exact hC _
  have h0 : flat 8 hash = bitsBE 8 (hash.getD 0 0).toNat ++ flat 8 (hash.drop 1) := by
    obtain ⟨x, t, rfl⟩ : ∃ x t, hash = x :: t := by
      cases hash with
      | nil => simp at hlen
      | cons x t => exact ⟨x, t, rfl⟩
    simp
  have h1 : (flat 8 e).drop (8 * eb) = bitsBE 8 (e.getD eb 0).toNat ++ flat 8 (e.drop (eb + 1)) := by
    rw [flat_drop, List.drop_eq_getElem_cons hl, flat_cons]
    simp [List.getD_eq_getElem?_getD, List.getElem?_eq_getElem hl]
  have h2 (x : Nat) : (bitsBE 8 x).take cs = bitsBE cs (x >>> (8 - cs)) := by
    have := take_bitsBE cs (8 - cs) x
    rwa [show cs + (8 - cs) = 8 by omega] at this
  rw [h0, h1, List.take_append_of_le_length (by simpa using hcs), List.take_append_of_le_length (by simpa using hcs), h2, h2]
  have hx := (e.getD eb 0).toNat_lt
  generalize (e.getD eb 0).toNat = x at *
  generalize (hash.getD 0 0).toNat = y at *
  rw [Nat.one_shiftLeft, Nat.and_two_pow_sub_one_eq_mod]
  have hx' : x >>> (8 - cs) < 2 ^ cs := by
    rw [Nat.shiftRight_eq_div_pow, Nat.div_lt_iff_lt_mul (Nat.two_pow_pos _), ← Nat.pow_add]
    rw [show cs + (8 - cs) = 8 by omega]
    simpa using hx
  constructor
  · intro h
    split at h
    · cases h
    · rename_i hne
      have hne := Decidable.not_not.1 hne
      rw [← hne, bitsBE_mod _ (Nat.le_refl _)]
  · intro h
    rw [if_neg]
    intro hne
    apply hne
    apply bitsBE_inj (w := cs) (Nat.mod_lt _ (Nat.two_pow_pos _)) hx'
    rw [bitsBE_mod _ (Nat.le_refl _), h]

/-- The accepted sizes: 16 or 32 bytes of entropy. -/
def Size (entropy : Bytes) : Prop := entropy.length = 16 ∨ entropy.length = 32

theorem mnemonic_words {C : Crypto} (hC : Sha C.sha256) {entropy : Bytes} {ws : List Bytes} (hs : Size entropy)
    (h : IsMnemonic C.sha256 entropy ws) : ws.length = entropy.length * 3 / 4 := by
  obtain ⟨ns, _, hb, rfl⟩ := h
  have hl := congrArg List.length hb
  simp only [bits_length, List.length_append, byteBits_length, List.length_take, hC entropy] at hl
  simp only [List.length_map]
  rcases hs with hs | hs <;> rw [hs] at hl ⊢ <;> omega

/-- **C64** (validation, exactly): a phrase is accepted exactly when its words (the pieces between spaces)
are the BIP-39 words of some 16- or 32-byte entropy: all listed, and the checksum bits are the first bits of
the hash of the entropy bits. -/
theorem C64_validate_iff (C : Crypto) (hC : Sha C.sha256) (s : Bytes) :
    validate C s = .ok () ↔ ∃ entropy, Size entropy ∧ IsMnemonic C.sha256 entropy (tokens 0x20 s) := by
  constructor
  · intro h
    unfold validate at h
    split at h
    · cases h
    · rw [Res.bind_eq_ok] at h
      obtain ⟨is, h1, h⟩ := h
      rw [Res.bind_eq_ok] at h
      obtain ⟨e, h2, h⟩ := h
      obtain ⟨r1, r2, r3⟩ := (readWords_iff _ _ _).1 h1
      split at h2
      · rename_i hlen
        obtain ⟨e', k1, k2, k, k3⟩ := wordLoop_ok is 0 [] (List.replicate 33 0) rfl (by omega) holds_zero
        rw [h2] at k1
        cases k1
        rw [List.nil_append] at k3
        have key : ∀ eb cs, cs ≤ 8 → 11 * is.length = 8 * eb + cs → eb < 33 → 8 * eb / 32 = cs →
            checkSum C e eb cs = .ok () → eb ≤ 32 → (e.take eb).length = eb ∧
            IsMnemonic C.sha256 (e.take eb) (tokens 0x20 s) := by
          intro eb cs hcs hn heb hd hc _
          have hl : (e.take eb).length = eb := by rw [List.length_take, k2]; omega
          refine ⟨hl, is, r2, ?_, r3⟩
          have hchk := (checkSum_iff C hC e eb cs hcs (by omega)).1 hc
          have hb : Spec.bits 11 is = (flat 8 e).take (8 * eb + cs) := by
            rw [k3, ← hn, ← bits_length 11 is, List.take_left]
          rw [hb, List.take_add, flat_take, hchk, byteBits_eq, byteBits_eq, hl, hd]
        split at h
        · rename_i h12
          obtain ⟨a1, a2⟩ := key 16 4 (by omega) (by omega) (by omega) (by omega) h (by omega)
          exact ⟨_, .inl a1, a2⟩
        · rename_i h12
          obtain ⟨a1, a2⟩ := key 32 8 (by omega) (by omega) (by omega) (by omega) h (by omega)
          exact ⟨_, .inr a1, a2⟩
      · cases h2
  · rintro ⟨entropy, hs, hm⟩
    have hwl := mnemonic_words hC hs hm
    obtain ⟨ns, n1, n2, n3⟩ := hm
    have hnl : ns.length = entropy.length * 3 / 4 := by rw [← hwl, n3, List.length_map]
    have hne : s ≠ [] := by
      intro h0
      subst h0
      have : (tokens 0x20 []).length = 0 := by decide
      rcases hs with hs | hs <;> rw [hs] at hwl <;> omega
    have hread : readWords (tokens 0x20 s) 0 = .ok ns := by
      refine (readWords_iff _ _ _).2 ⟨.inr ?_, n1, n3⟩
      rcases hs with hs | hs <;> rw [hs] at hwl <;> omega
    obtain ⟨e, k1, k2, k, k3⟩ := wordLoop_ok ns 0 [] (List.replicate 33 0) rfl
      (by rcases hs with hs | hs <;> rw [hs] at hnl <;> omega) holds_zero
    rw [List.nil_append, n2, byteBits_eq, byteBits_eq] at k3
    have htake : e.take entropy.length = entropy := by
      have : flat 8 (e.take entropy.length) = flat 8 entropy := by
        rw [← flat_take, k3, List.append_assoc]
        exact List.take_left' (by simp)
      exact flat_inj (by omega) (fits8 _) (fits8 _) this
    have hchk : checkSum C e entropy.length (8 * entropy.length / 32) = .ok () := by
      refine (checkSum_iff C hC e _ _ ?_ ?_).2 ?_
      · rcases hs with hs | hs <;> rw [hs] <;> decide
      · rcases hs with hs | hs <;> rw [hs, k2] <;> decide
      · have h32 := hC entropy
        rw [htake, k3, List.append_assoc, List.drop_left' (by simp)]
        exact List.take_left' (by
          rw [List.length_take, flat_length, h32]
          rcases hs with hs | hs <;> rw [hs] <;> decide)
    unfold validate
    rw [if_neg hne, hread]
    simp only [Res.bind_ok]
    have hcond : ns.length = 12 ∨ ns.length = 24 := by
      rcases hs with hs | hs <;> rw [hs] at hnl <;> omega
    rw [if_pos hcond, k1]
    simp only [Res.bind_ok]
    rcases hs with hs | hs
    · rw [hs] at hnl hchk
      rw [if_pos (by omega)]
      exact hchk
    · rw [hs] at hnl hchk
      rw [if_neg (by omega)]
      exact hchk

/-- **C64** (any text): validation of an arbitrary text stays within its buffers. -/
theorem C64_validate_total (C : Crypto) (s : Bytes) : validate C s = .ok () ∨ validate C s = .err .invalidParam := by
  have he : ∀ e eb cs, checkSum C e eb cs = .ok () ∨ checkSum C e eb cs = .err .invalidParam := by
    intro e eb cs
    unfold checkSum
    simp only
    split <;> simp
  have hre : ∀ ws n er, readWords ws n = .err er → er = .invalidParam := by
    intro ws
    induction ws with
    | nil => intro n er h; cases h
    | cons w ws ih =>
      intro n er h
      unfold readWords at h
      split at h
      · split at h
        · simpa using h.symm
        · cases hr : readWords ws (n + 1) with
          | ok a => rw [hr] at h; cases h
          | err e' => rw [hr] at h; cases h; exact ih _ _ hr
          | ub => exact absurd hr (readWords_noub _ _)
      · simpa using h.symm
  unfold validate
  split
  · simp
  · cases hr : readWords (tokens 0x20 s) 0 with
    | ub => exact absurd hr (readWords_noub _ _)
    | err er => rw [hre _ _ _ hr]; simp
    | ok is =>
      simp only [Res.bind_ok]
      by_cases hlen : is.length = 12 ∨ is.length = 24
      · rw [if_pos hlen]
        obtain ⟨e, k1, _⟩ := wordLoop_ok is 0 [] (List.replicate 33 0) rfl (by omega) holds_zero
        rw [k1]
        simp only [Res.bind_ok]
        split <;> exact he _ _ _
      · rw [if_neg hlen]; simp

/-! ## Generation -/

/-- The words written after the first one. -/
def rest (c : Bytes) (is : List Nat) : Bytes := is.flatMap fun i => [0x20] ++ words.getD (indexAt c i) []

theorem words_at (c : Bytes) (i : Nat) : words[indexAt c i]? = some (words.getD (indexAt c i) []) := by
  rw [List.getD_eq_getElem?_getD, List.getElem?_eq_getElem (by rw [words_length]; exact indexAt_lt c i)]
  rfl

theorem writeLoop_eq (c : Bytes) (size : Nat) : ∀ (is : List Nat) (text : Bytes), (∀ i ∈ is, 0 < i) → text.length < size →
    writeLoop c size is text = if (text ++ rest c is).length < size then .ok (text ++ rest c is) else .err .invalidParam := by
  intro is
  induction is with
  | nil => intro text _ ht; simp [writeLoop, rest, ht]
  | cons i is ih =>
    intro text hi ht
    have hi0 := hi i (by simp)
    unfold writeLoop
    rw [words_at]
    simp only [gt_iff_lt, hi0, if_true]
    have hrest : rest c (i :: is) = [0x20] ++ words.getD (indexAt c i) [] ++ rest c is := rfl
    rw [hrest]
    generalize words.getD (indexAt c i) [] = w
    by_cases hlt : text.length + w.length + 1 ≥ size
    · rw [if_pos hlt, if_neg (by simp only [List.length_append, List.length_cons, List.length_nil]; omega)]
    · rw [if_neg hlt, ih _ (fun k hk => hi k (by simp [hk])) (by
        simp only [List.length_append, List.length_cons, List.length_nil]; omega)]
      simp only [List.append_assoc]

theorem join_eq (w : Bytes) (ws : List Bytes) : join 0x20 (w :: ws) = w ++ ws.flatMap fun x => [0x20] ++ x := by
  induction ws generalizing w with
  | nil => simp [join]
  | cons x ws ih =>
    show w ++ 0x20 :: join 0x20 (x :: ws) = _
    rw [ih]
    simp

theorem generate_eq (C : Crypto) (e : Bytes) (n size : Nat) (hn : n = 12 ∨ n = 24) :
    let c := e ++ [(C.sha256 e).getD 0 0] ++ List.replicate (33 - e.length) 0
    let m := join 0x20 ((List.range n).map fun i => words.getD (indexAt c i) [])
    generate C (some e) n size = if m.length < size then .ok m else .err .invalidParam := by
  intro c m
  obtain ⟨k, rfl⟩ : ∃ k, n = k + 1 := ⟨n - 1, by omega⟩
  have hm : m = words.getD (indexAt c 0) [] ++ rest c ((List.range k).map Nat.succ) := by
    show join 0x20 _ = _
    rw [List.range_succ_eq_map, List.map_cons, join_eq, rest, List.map_map, List.flatMap_map, List.flatMap_map]
    rfl
  unfold generate
  by_cases h0 : size = 0
  · rw [if_pos h0, if_neg (by omega)]
  · rw [if_neg h0, if_neg (by omega)]
    simp only
    rw [show ((k + 1 : Nat) : Int).toNat = k + 1 from rfl, List.range_succ_eq_map]
    unfold writeLoop
    rw [show (e ++ [(C.sha256 e).getD 0 0] ++ List.replicate (33 - e.length) 0) = c from rfl, words_at]
    simp only [gt_iff_lt, Nat.lt_irrefl, if_false, List.length_nil, List.nil_append]
    generalize hw : words.getD (indexAt c 0) [] = w at hm ⊢
    by_cases hlt : 0 + w.length + 0 ≥ size
    · rw [if_pos hlt, if_neg (by rw [hm, List.length_append]; omega)]
    · rw [if_neg hlt, writeLoop_eq c size _ _ (by
        intro i hi; obtain ⟨j, _, rfl⟩ := List.mem_map.1 hi; exact Nat.succ_pos j) (by omega), ← hm]

theorem generated_words (C : Crypto) (hC : Sha C.sha256) (e : Bytes) (n : Nat) (h : e.length = 16 ∧ n = 12 ∨ e.length = 32 ∧ n = 24) :
    IsMnemonic C.sha256 e ((List.range n).map fun i =>
      words.getD (indexAt (e ++ [(C.sha256 e).getD 0 0] ++ List.replicate (33 - e.length) 0) i) []) := by
  generalize hc : e ++ [(C.sha256 e).getD 0 0] ++ List.replicate (33 - e.length) 0 = c
  have hcl : c.length = 34 := by
    rw [← hc]
    simp only [List.length_append, List.length_replicate, List.length_cons, List.length_nil]
    omega
  refine ⟨(List.range n).map (indexAt c), ?_, ?_, by rw [List.map_map]; rfl⟩
  · intro k hk
    obtain ⟨i, _, rfl⟩ := List.mem_map.1 hk
    exact indexAt_lt c i
  · rw [indices_bits c n (by right; omega), byteBits_eq, byteBits_eq]
    have h0 : flat 8 (C.sha256 e) = bitsBE 8 ((C.sha256 e).getD 0 0).toNat ++ flat 8 ((C.sha256 e).drop 1) := by
      have hlen := hC e
      obtain ⟨x, t, hx⟩ : ∃ x t, C.sha256 e = x :: t := by
        cases hq : C.sha256 e with
        | nil => rw [hq] at hlen; simp at hlen
        | cons x t => exact ⟨x, t, rfl⟩
      rw [hx]; simp
    have hn : 11 * n = (flat 8 e).length + 8 * e.length / 32 := by rw [flat_length]; omega
    have h8 : 8 * e.length / 32 ≤ 8 := by omega
    rw [← hc, List.append_assoc, flat_append, hn, List.take_length_add_append, h0, flat_append, flat_cons, flat_nil,
      List.append_nil, List.take_append_of_le_length (by simpa using h8), List.take_append_of_le_length (by simpa using h8)]

theorem word_facts {ns : List Nat} (hn : ∀ n ∈ ns, n < 2048) : ∀ t ∈ ns.map (fun n => words.getD n []), (0x20 : UInt8) ∉ t ∧ t ≠ [] := by
  intro t ht
  obtain ⟨n, hn', rfl⟩ := List.mem_map.1 ht
  have hm : words.getD n [] ∈ words := by
    rw [List.getD_eq_getElem?_getD, List.getElem?_eq_getElem (by rw [words_length]; exact hn n hn')]
    exact List.getElem_mem _
  obtain ⟨h1, _, h3⟩ := words_plain hm
  constructor
  · intro h
    have := (h3 _ h).1
    revert this
    decide
  · intro h
    rw [h] at h1
    simp at h1

theorem tokens_mnemonic {sha : Bytes → Bytes} {e : Bytes} {ws : List Bytes} (h : IsMnemonic sha e ws) :
    tokens 0x20 (join 0x20 ws) = ws := by
  obtain ⟨ns, hn, _, rfl⟩ := h
  exact tokens_join (word_facts hn)

/-- **C64** (generation): for 16 bytes of entropy and 12 words, or 32 bytes and 24 words, the phrase is the
BIP-39 words of the entropy separated by single spaces; it is returned exactly when it fits the buffer with its
terminator. -/
theorem C64_generate (C : Crypto) (hC : Sha C.sha256) (e : Bytes) (n size : Nat)
    (h : e.length = 16 ∧ n = 12 ∨ e.length = 32 ∧ n = 24) :
    ∃ ws, IsMnemonic C.sha256 e ws ∧ ws.length = n ∧
      generate C (some e) n size = if (join 0x20 ws).length + 1 ≤ size then .ok (join 0x20 ws) else .err .invalidParam :=
  ⟨_, generated_words C hC e n h, by simp, generate_eq C e n size (by omega)⟩

/-- **C64** (acceptance): every generated phrase validates. -/
theorem C64_generated_valid (C : Crypto) (hC : Sha C.sha256) (e : Bytes) (n size : Nat) (m : Bytes)
    (h : e.length = 16 ∧ n = 12 ∨ e.length = 32 ∧ n = 24) (hg : generate C (some e) n size = .ok m) :
    validate C m = .ok () := by
  obtain ⟨ws, hw, _, he⟩ := C64_generate C hC e n size h
  rw [he] at hg
  split at hg
  · cases hg
    refine (C64_validate_iff C hC _).2 ⟨e, ?_, ?_⟩
    · rcases h with h | h
      · exact .inl h.1
      · exact .inr h.1
    · rwa [tokens_mnemonic hw]
  · cases hg

theorem mnemonic_inj {sha : Bytes → Bytes} (hs : Sha sha) {e e' : Bytes} {ws : List Bytes} (hl : e.length = e'.length)
    (h : IsMnemonic sha e ws) (h' : IsMnemonic sha e' ws) : e = e' := by
  obtain ⟨ns, n1, n2, n3⟩ := h
  obtain ⟨ns', m1, m2, m3⟩ := h'
  have hns : ns = ns' := by
    have hinj : ∀ a < 2048, ∀ b < 2048, words.getD a [] = words.getD b [] → a = b := by
      intro a ha b hb hab
      rw [List.getD_eq_getElem?_getD, List.getD_eq_getElem?_getD, List.getElem?_eq_getElem (by rw [words_length]; exact ha),
        List.getElem?_eq_getElem (by rw [words_length]; exact hb)] at hab
      have hnd := List.pairwise_iff_getElem.1 C65_table.2.1
      rcases Nat.lt_trichotomy a b with h | h | h
      · exact absurd hab (hnd _ _ _ _ h)
      · exact h
      · exact absurd hab.symm (hnd _ _ _ _ h)
    rw [n3] at m3
    clear n2 m2 n3
    induction ns generalizing ns' with
    | nil => exact (List.map_eq_nil_iff.1 m3.symm).symm
    | cons a ns ih =>
      cases ns' with
      | nil => simp at m3
      | cons b ns' =>
        simp only [List.map_cons, List.cons.injEq] at m3
        rw [hinj a (n1 a (by simp)) b (m1 b (by simp)) m3.1,
          ih (fun n hn => n1 n (by simp [hn])) ns' (fun n hn => m1 n (by simp [hn])) m3.2]
  subst hns
  rw [n2] at m2
  exact byteBits_inj (List.append_inj m2 (by rw [byteBits_length, byteBits_length, hl])).1

/-- **C64** (the entropy is carried): different entropies give different phrases. -/
theorem C64_distinct (C : Crypto) (hC : Sha C.sha256) (e e' : Bytes) (n n' size size' : Nat) (m : Bytes)
    (h : e.length = 16 ∧ n = 12 ∨ e.length = 32 ∧ n = 24) (h' : e'.length = 16 ∧ n' = 12 ∨ e'.length = 32 ∧ n' = 24)
    (hg : generate C (some e) n size = .ok m) (hg' : generate C (some e') n' size' = .ok m) : e = e' := by
  obtain ⟨ws, hw, hl, he⟩ := C64_generate C hC e n size h
  obtain ⟨ws', hw', hl', he'⟩ := C64_generate C hC e' n' size' h'
  rw [he] at hg
  rw [he'] at hg'
  split at hg
  · split at hg'
    · simp only [Res.ok.injEq] at hg hg'
      have hws : ws = ws' := by
        rw [← tokens_mnemonic hw, ← tokens_mnemonic hw', hg, hg']
      subst hws
      exact mnemonic_inj hC (by omega) hw hw'
    · cases hg'
  · cases hg

/-! ## C67 -/

/-- A concrete instance of the library functions. -/
def toyCrypto : Crypto where
  hmac512 k d := some ((k ++ d ++ List.replicate 64 1).take 64)
  sha256 m := (m ++ List.replicate 32 5).take 32
  pbkdf2 p s _ n := some ((p ++ s ++ List.replicate n 2).take n)
  pubCompressed k := some (2 :: k)
  tweakAdd k t := some (List.zipWith (· + ·) k t)
  xonly k := some k
  nfkd := none

theorem toy_sha : Sha toyCrypto.sha256 := by
  intro m
  simp only [toyCrypto, List.length_take, List.length_append, List.length_replicate]
  omega

/-- The published phrase for sixteen zero bytes is made the same way (its checksum depends on the hash, here the
toy one, whose first byte for this entropy is zero). -/
example : generate toyCrypto (some (List.replicate 16 0)) 12 200 =
    .ok (c!"abandon abandon abandon abandon abandon abandon abandon abandon abandon abandon abandon abandon") ∧
    generate toyCrypto (some (List.replicate 16 0)) 12 95 = .err .invalidParam := by
  have h := generate_eq toyCrypto (List.replicate 16 0) 12
  have hm : join 0x20 ((List.range 12).map fun i => words.getD (indexAt (List.replicate 16 0 ++
      [(toyCrypto.sha256 (List.replicate 16 0)).getD 0 0] ++ List.replicate (33 - (List.replicate 16 (0 : UInt8)).length) 0) i) []) =
      c!"abandon abandon abandon abandon abandon abandon abandon abandon abandon abandon abandon abandon" := by
    decide +kernel
  constructor
  · have := h 200 (.inl rfl)
    simp only [hm] at this
    exact this
  · have := h 95 (.inl rfl)
    simp only [hm] at this
    exact this

/-- What the seed is computed from: PBKDF2 of the phrase as written. -/
theorem toSeed_ascii (C : Crypto) (h : C.nfkd = none) (m : Bytes) (p : Option Bytes) (hv : validate C m = .ok ())
    (ha : isAscii m = true) (hp : isAscii (p.getD []) = true) :
    toSeed C m p = match C.pbkdf2 m (c!"mnemonic" ++ p.getD []) 2048 64 with
      | none => .err .memory
      | some s => .ok s := by
  unfold toSeed
  rw [hv]
  simp only [Res.bind_ok, h, ha, hp]
  rfl

/-- **C67** is false: two accepted phrases with the same words in the same order, differing in a leading space,
give different seeds (for a key derivation that tells them apart). -/
theorem C67_spaces_refuted : ∃ C : Crypto, Sha C.sha256 ∧ ∃ m m' : Bytes, validate C m = .ok () ∧ validate C m' = .ok () ∧
    tokens 0x20 m = tokens 0x20 m' ∧ toSeed C m none ≠ toSeed C m' none := by
  refine ⟨toyCrypto, toy_sha,
    c!"abandon abandon abandon abandon abandon abandon abandon abandon abandon abandon abandon abandon",
    c!" abandon abandon abandon abandon abandon abandon abandon abandon abandon abandon abandon abandon", ?_⟩
  have ht : tokens 0x20 (c!" abandon abandon abandon abandon abandon abandon abandon abandon abandon abandon abandon abandon") =
      tokens 0x20 (c!"abandon abandon abandon abandon abandon abandon abandon abandon abandon abandon abandon abandon") := by
    decide +kernel
  have h1 : validate toyCrypto
      (c!"abandon abandon abandon abandon abandon abandon abandon abandon abandon abandon abandon abandon") = .ok () := by
    decide +kernel
  have h2 : validate toyCrypto
      (c!" abandon abandon abandon abandon abandon abandon abandon abandon abandon abandon abandon abandon") = .ok () := by
    rw [C64_validate_iff toyCrypto toy_sha, ht]
    exact (C64_validate_iff toyCrypto toy_sha _).1 h1
  refine ⟨h1, h2, ht.symm, ?_⟩
  rw [toSeed_ascii toyCrypto rfl _ none h1 (by decide +kernel) rfl, toSeed_ascii toyCrypto rfl _ none h2 (by decide +kernel) rfl]
  decide +kernel

theorem valid_chars (C : Crypto) (hC : Sha C.sha256) (m : Bytes) (h : validate C m = .ok ()) : isAscii m = true := by
  obtain ⟨e, _, ns, hn, _, ht⟩ := (C64_validate_iff C hC m).1 h
  unfold isAscii
  rw [List.all_eq_true]
  intro c hc
  have hj := join_split 0x20 m
  have hcm : c = 0x20 ∨ ∃ t ∈ split 0x20 m, c ∈ t := by
    rw [← hj] at hc
    revert hc
    generalize split 0x20 m = ts
    intro hc
    induction ts with
    | nil => simp [join] at hc
    | cons t ts ih =>
      cases ts with
      | nil => exact .inr ⟨t, by simp, by simpa [join] using hc⟩
      | cons u us =>
        have hc : c ∈ t ++ 0x20 :: join 0x20 (u :: us) := hc
        rcases List.mem_append.1 hc with h | h
        · exact .inr ⟨t, by simp, h⟩
        · rcases List.mem_cons.1 h with h | h
          · exact .inl h
          · rcases ih h with h | ⟨x, hx, hcx⟩
            · exact .inl h
            · exact .inr ⟨x, by simp [hx], hcx⟩
  rcases hcm with rfl | ⟨t, ht1, ht2⟩
  · decide
  · have htok : t ∈ tokens 0x20 m := by
      unfold tokens
      rw [List.mem_filter]
      refine ⟨ht1, ?_⟩
      have : t ≠ [] := fun h => by rw [h] at ht2; cases ht2
      simpa using this
    rw [ht] at htok
    obtain ⟨n, hn', rfl⟩ := List.mem_map.1 htok
    have hm : words.getD n [] ∈ words := by
      rw [List.getD_eq_getElem?_getD, List.getElem?_eq_getElem (by rw [words_length]; exact hn n hn')]
      exact List.getElem_mem _
    have := ((words_plain hm).2.2 c ht2).2
    rw [decide_eq_true_eq]
    exact UInt8.le_trans this (by decide)

/-- **C67**, the part that holds: phrases with the same words and one space between them are the same text and
give the same seed; and the seed of an accepted phrase is PBKDF2 (2048 rounds, 64 bytes) of the phrase with the
salt "mnemonic" followed by the passphrase - for any passphrase, with a normaliser that leaves ASCII text alone,
or for an ASCII passphrase without one. -/
theorem C67_seed_partial (C : Crypto) (hC : Sha C.sha256) (m : Bytes) (pass : Bytes) (hv : validate C m = .ok ()) :
    (∀ m', validate C m' = .ok () → m = join 0x20 (tokens 0x20 m) → m' = join 0x20 (tokens 0x20 m') →
      tokens 0x20 m = tokens 0x20 m' → ∀ p, toSeed C m p = toSeed C m' p) ∧
    (C.nfkd = none → (∀ c ∈ pass, c ≤ 127) → ∀ seed, toSeed C m (some pass) = .ok seed ↔
      C.pbkdf2 m (c!"mnemonic" ++ pass) 2048 64 = some seed) ∧
    (∀ norm, C.nfkd = some norm → (∀ t, (∀ c ∈ t, c ≤ 127) → norm t = some t) → ∀ p', norm pass = some p' →
      ∀ seed, toSeed C m (some pass) = .ok seed ↔ C.pbkdf2 m (c!"mnemonic" ++ p') 2048 64 = some seed) := by
  have ha := valid_chars C hC m hv
  refine ⟨?_, ?_, ?_⟩
  · intro m' _ h1 h2 h3 p
    rw [h1, h2, h3]
  · intro hn hp seed
    have hpa : isAscii ((some pass).getD []) = true := by
      rw [Option.getD_some]
      unfold isAscii
      rw [List.all_eq_true]
      intro c hc
      exact decide_eq_true (hp c hc)
    rw [toSeed_ascii C hn m (some pass) hv ha hpa, Option.getD_some]
    cases C.pbkdf2 m (c!"mnemonic" ++ pass) 2048 64 <;> simp
  · intro norm hn hid p' hp' seed
    have hm : norm m = some m := hid m (by
      unfold isAscii at ha
      rw [List.all_eq_true] at ha
      intro c hc
      exact of_decide_eq_true (ha c hc))
    unfold toSeed
    rw [hv]
    simp only [Res.bind_ok, hn, hm, hp', toSeed.run]
    cases C.pbkdf2 m (c!"mnemonic" ++ p') 2048 64 <;> simp

example : ∃ s, toSeed toyCrypto
    (c!"abandon abandon abandon abandon abandon abandon abandon abandon abandon abandon abandon abandon") (some (c!"x")) = .ok s := by
  have h1 : validate toyCrypto
      (c!"abandon abandon abandon abandon abandon abandon abandon abandon abandon abandon abandon abandon") = .ok () := by
    decide +kernel
  exact ⟨_, ((C67_seed_partial toyCrypto toy_sha _ (c!"x") h1).2.1 rfl (by decide) _).2 rfl⟩

end Nostr.Hd.Props
