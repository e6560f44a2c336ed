import Verif.Hex.Model
import Verif.Hex.Spec

/-! # Helper lemmas for the hex codecs -/

namespace Nostr.Hex
open Nostr Spec

/-- A property of every byte, checked on the whole table. -/
theorem forall_byte {p : UInt8 → Prop} (h : ∀ n < 256, p (UInt8.ofNat n)) (b : UInt8) : p b := by
  have := h b.toNat b.toNat_lt
  rwa [UInt8.ofNat_toNat] at this

/-- Lower-casing one character. -/
def low (c : UInt8) : UInt8 :=
  if 0x41 ≤ c.toNat ∧ c.toNat ≤ 0x46 then UInt8.ofNat (c.toNat + 32) else c

/-- Spec-side digit character. -/
def dig (n : Nat) : UInt8 := if n < 10 then UInt8.ofNat (48 + n) else UInt8.ofNat (87 + n)

theorem nibble_table : ∀ n < 256, ∀ v < 16,
    (nibble (UInt8.ofNat n) = some v ↔ low (UInt8.ofNat n) = dig v) := by decide +kernel

theorem nibble_lt_table : ∀ n < 256, (nibble (UInt8.ofNat n)).all (fun v => decide (v < 16)) = true := by
  decide +kernel

theorem nibble_lt {c : UInt8} {v : Nat} (h : nibble c = some v) : v < 16 := by
  have := forall_byte (p := fun c => (nibble c).all (fun v => decide (v < 16)) = true) nibble_lt_table c
  simp only [h, Option.all_some, decide_eq_true_eq] at this
  exact this

theorem nibble_iff {c : UInt8} {v : Nat} (hv : v < 16) : nibble c = some v ↔ low c = dig v :=
  forall_byte (p := fun c => ∀ v < 16, (nibble c = some v ↔ low c = dig v)) nibble_table c v hv

theorem byte_split (b : UInt8) : UInt8.ofNat ((b.toNat / 16) <<< 4 ||| (b.toNat % 16)) = b :=
  forall_byte (p := fun b => UInt8.ofNat ((b.toNat / 16) <<< 4 ||| (b.toNat % 16)) = b)
    (by decide +kernel) b

theorem byte_join : ∀ h < 16, ∀ l < 16, (UInt8.ofNat (h <<< 4 ||| l)).toNat / 16 = h ∧
    (UInt8.ofNat (h <<< 4 ||| l)).toNat % 16 = l := by decide +kernel

theorem hexOf_eq (b : UInt8) : hexOf b = [dig (b.toNat / 16), dig (b.toNat % 16)] := rfl

theorem pairs_iff : ∀ (s bs : Bytes), s.length % 2 = 0 →
    (pairs s = some bs ↔ lowerHex s = hexText bs) := by
  intro s
  induction h : s.length using Nat.strongRecOn generalizing s with
  | ind n ih =>
    intro bs he
    match s with
    | [] =>
      simp only [pairs, lowerHex, List.map_nil, hexText]
      cases bs with
      | nil => simp
      | cons b bs => simp [hexOf]
    | [c] => subst h; simp at he
    | c :: d :: rest =>
      have ih' := fun bs => ih rest.length (by simp at h; omega) rest rfl bs (by simp at h; omega)
      have hl : lowerHex (c :: d :: rest) = low c :: low d :: lowerHex rest := rfl
      rw [hl]
      constructor
      · intro hp
        simp only [pairs] at hp
        split at hp
        · rename_i h1 l1 hc hd
          split at hp
          · rename_i bs' hr
            simp only [Option.some.injEq] at hp
            subst hp
            have a1 := nibble_lt hc
            have a2 := nibble_lt hd
            have j := byte_join h1 a1 l1 a2
            rw [(ih' bs').1 hr]
            simp only [hexText, List.flatMap_cons, hexOf_eq, j.1, j.2, List.cons_append, List.nil_append]
            rw [(nibble_iff a1).1 hc, (nibble_iff a2).1 hd]
          · simp at hp
        · simp at hp
      · intro hp
        cases bs with
        | nil => simp [hexText] at hp
        | cons b bs =>
          simp only [hexText, List.flatMap_cons, hexOf_eq, List.cons_append, List.nil_append,
            List.cons.injEq] at hp
          have hb := b.toNat_lt
          have c1 := (nibble_iff (c := c) (v := b.toNat / 16) (by omega)).2 hp.1
          have d1 := (nibble_iff (c := d) (v := b.toNat % 16) (by omega)).2 hp.2.1
          have r1 := (ih' bs).2 hp.2.2
          simp only [pairs, c1, d1, r1, byte_split]

theorem digit_eq : ∀ n < 16, digit n = dig n := by decide +kernel

theorem hexEncode_eq (bs : Bytes) : hexEncode bs = hexText bs := by
  unfold hexEncode hexText
  congr 1
  funext b
  have hb := b.toNat_lt
  have e1 : (b.toNat >>> 4) &&& 0x0f = b.toNat / 16 := by
    have : (0x0f : Nat) = 2 ^ 4 - 1 := rfl
    rw [this, Nat.and_two_pow_sub_one_eq_mod, Nat.shiftRight_eq_div_pow]
    omega
  have e2 : b.toNat &&& 0x0f = b.toNat % 16 := by
    have : (0x0f : Nat) = 2 ^ 4 - 1 := rfl
    rw [this, Nat.and_two_pow_sub_one_eq_mod]
  rw [e1, e2, digit_eq _ (by omega), digit_eq _ (by omega), hexOf_eq]

theorem hexText_length (bs : Bytes) : (hexText bs).length = 2 * bs.length := by
  induction bs with
  | nil => rfl
  | cons b bs ih =>
    simp only [hexText, List.flatMap_cons, List.length_append] at ih ⊢
    simp only [ih, hexOf_eq, List.length_cons, List.length_nil]; omega

theorem lowerHex_length (s : Bytes) : (lowerHex s).length = s.length := by simp [lowerHex]

theorem low_dig : ∀ v < 16, low (dig v) = dig v := by decide +kernel

theorem lowerHex_hexText (bs : Bytes) : lowerHex (hexText bs) = hexText bs := by
  induction bs with
  | nil => rfl
  | cons b bs ih =>
    have hb := b.toNat_lt
    have : hexText (b :: bs) = dig (b.toNat / 16) :: dig (b.toNat % 16) :: hexText bs := rfl
    rw [this]
    have h2 : ∀ c s, lowerHex (c :: s) = low c :: lowerHex s := fun _ _ => rfl
    rw [h2, h2, ih, low_dig _ (by omega), low_dig _ (by omega)]

theorem hexDecode_iff (s bs : Bytes) (n : Nat) :
    hexDecode s n = some bs ↔ bs.length ≤ n ∧ lowerHex s = hexText bs := by
  unfold hexDecode
  constructor
  · intro h
    split at h
    · simp at h
    · rename_i hc
      have hp := (pairs_iff s bs (by omega)).1 h
      have hl := congrArg List.length hp
      rw [lowerHex_length, hexText_length] at hl
      exact ⟨by omega, hp⟩
  · rintro ⟨h1, h2⟩
    have hl := congrArg List.length h2
    rw [lowerHex_length, hexText_length] at hl
    rw [if_neg (by omega)]
    exact (pairs_iff s bs (by omega)).2 h2

theorem hexText_inj {a b : Bytes} (h : hexText a = hexText b) : a = b := by
  have h1 := (pairs_iff (hexText a) a (by rw [hexText_length]; omega)).2 (lowerHex_hexText a)
  have h2 := (pairs_iff (hexText a) b (by rw [hexText_length]; omega)).2
    ((lowerHex_hexText a).trans h)
  rw [h1] at h2
  exact Option.some.inj h2

theorem charAt_ok {s : Bytes} {i : Nat} (h : i < s.length) : charAt s i = .ok s[i] := by
  unfold charAt
  rw [if_pos h]
  simp [h]

/-- The relay-side loop agrees with the pairwise loop on the part it reads. -/
theorem relayLoop_eq (hex : Bytes) : ∀ k i, 2 * (i + k) ≤ hex.length →
    relayLoop hex k i = match pairs ((hex.drop (2 * i)).take (2 * k)) with
      | some bs => .ok bs
      | none => .err (.relay .invalidId) := by
  intro k
  induction k with
  | zero => intro i _; simp [relayLoop, pairs]
  | succ k ih =>
    intro i hl
    unfold relayLoop
    rw [charAt_ok (by omega), Res.bind_ok, charAt_ok (by omega), Res.bind_ok, ih (i + 1) (by omega)]
    have e1 : hex.drop (2 * i) = hex[i * 2]'(by omega) :: hex[i * 2 + 1]'(by omega) :: hex.drop (2 * (i + 1)) := by
      rw [List.drop_eq_getElem_cons (by omega), List.drop_eq_getElem_cons (by omega)]
      simp only [Nat.mul_comm 2 i]
      congr 3
      omega
    have e2 : 2 * (k + 1) = 2 * k + 1 + 1 := by omega
    rw [e1, e2, List.take_succ_cons, List.take_succ_cons, pairs]
    cases nibble (hex[i * 2]'(by omega)) with
    | none => rfl
    | some v1 =>
      cases nibble (hex[i * 2 + 1]'(by omega)) with
      | none => rfl
      | some v2 =>
        simp only
        cases pairs ((hex.drop (2 * (i + 1))).take (2 * k)) <;> simp

theorem ct_fold (l : List (UInt8 × UInt8)) : ∀ acc : UInt8,
    (l.foldl (fun diff p => diff ||| (p.1 ^^^ p.2)) acc = 0 ↔ acc = 0 ∧ ∀ p ∈ l, p.1 = p.2) := by
  induction l with
  | nil => intro acc; simp
  | cons p l ih =>
    intro acc
    rw [List.foldl_cons, ih]
    have h1 : (acc ||| (p.1 ^^^ p.2) = 0) ↔ acc = 0 ∧ p.1 = p.2 := by
      rw [UInt8.or_eq_zero_iff, UInt8.xor_eq_zero_iff]
    rw [h1]
    simp [and_assoc]

theorem ctMemcmp_iff {a b : Bytes} (h : a.length = b.length) : ctMemcmp a b = 0 ↔ a = b := by
  unfold ctMemcmp
  rw [ct_fold]
  simp only [true_and]
  constructor
  · intro hp
    apply List.ext_getElem h
    intro i h1 h2
    have hm : (a[i], b[i]) ∈ a.zip b := by
      rw [List.mem_iff_getElem]
      exact ⟨i, by simp; omega, by simp⟩
    exact hp _ hm
  · rintro rfl p hp
    rw [List.mem_iff_getElem] at hp
    obtain ⟨i, h1, rfl⟩ := hp
    simp

theorem nibble_notspace_table : ∀ n < 256, (nibble (UInt8.ofNat n)).isSome → isSpace (UInt8.ofNat n) = false := by
  decide +kernel

theorem scan2_digits (lax : Bool) {c d : UInt8} {v w : Nat} (hc : nibble c = some v) (hd : nibble d = some w)
    (rest : Bytes) : scan2 lax (c :: d :: rest) = some (UInt8.ofNat ((v <<< 4) ||| w)) := by
  have hs : isSpace c = false :=
    forall_byte (p := fun c => (nibble c).isSome → isSpace c = false) nibble_notspace_table c (by simp [hc])
  unfold scan2
  rw [List.dropWhile_cons, hs]
  simp [hc, hd]

theorem keyLoop_digits (lax : Bool) : ∀ (k : Nat) (s bs : Bytes), s.length = 2 * k → pairs s = some bs →
    keyLoop lax k s = .ok bs := by
  intro k
  induction k with
  | zero =>
    intro s bs hl hp
    have : s = [] := List.eq_nil_of_length_eq_zero hl
    subst this
    simp only [pairs, Option.some.injEq] at hp
    subst hp
    rfl
  | succ k ih =>
    intro s bs hl hp
    match s with
    | [] => simp at hl
    | [c] => simp at hl; omega
    | c :: d :: rest =>
      simp only [pairs] at hp
      split at hp
      · rename_i v w hc hd
        split at hp
        · rename_i bs' hr
          simp only [Option.some.injEq] at hp
          subst hp
          simp only [keyLoop, scan2_digits lax hc hd]
          have : (c :: d :: rest).drop 2 = rest := rfl
          rw [this, ih rest bs' (by simp at hl; omega) hr]
          rfl
        · simp at hp
      · simp at hp

theorem relay_eq (s : Bytes) (hexLen outSize : Nat) (hl : hexLen ≤ s.length) :
    relayHexToBytes s hexLen outSize =
      if hexLen % 2 ≠ 0 then .err (.relay .invalidId)
      else if hexLen / 2 > outSize then .err (.relay .bufferTooSmall)
      else match pairs (s.take hexLen) with
        | some bs => .ok bs
        | none => .err (.relay .invalidId) := by
  unfold relayHexToBytes
  split
  · rfl
  · split
    · rfl
    · rename_i h1 _
      rw [relayLoop_eq s (hexLen / 2) 0 (by omega)]
      have : 2 * (hexLen / 2) = hexLen := by omega
      simp only [Nat.mul_zero, List.drop_zero, this]

theorem isHex_iff (c : UInt8) : IsHexDigit c ↔ (nibble c).isSome :=
  forall_byte (p := fun c => IsHexDigit c ↔ (nibble c).isSome) (by unfold IsHexDigit; decide +kernel) c

theorem pairs_some_iff : ∀ (s : Bytes), s.length % 2 = 0 →
    ((∃ bs, pairs s = some bs) ↔ ∀ c ∈ s, IsHexDigit c) := by
  intro s
  induction h : s.length using Nat.strongRecOn generalizing s with
  | ind n ih =>
    intro he
    match s with
    | [] => simp [pairs]
    | [c] => subst h; simp at he
    | c :: d :: rest =>
      have ih' := ih rest.length (by simp at h; omega) rest rfl (by simp at h; omega)
      rw [List.forall_mem_cons, List.forall_mem_cons, ← ih', isHex_iff, isHex_iff]
      simp only [pairs]
      cases nibble c with
      | none => simp
      | some v =>
        cases nibble d with
        | none => simp
        | some w =>
          cases pairs rest <;> simp

theorem hexDecode_some_iff (s : Bytes) (outLen : Nat) :
    (∃ bs, hexDecode s outLen = some bs) ↔
      s.length % 2 = 0 ∧ s.length / 2 ≤ outLen ∧ ∀ c ∈ s, IsHexDigit c := by
  unfold hexDecode
  by_cases hc : s.length % 2 ≠ 0 ∨ s.length / 2 > outLen
  · rw [if_pos hc]
    simp only [reduceCtorEq, exists_false, false_iff]
    omega
  · rw [if_neg hc, pairs_some_iff s (by omega)]
    constructor
    · intro h; exact ⟨by omega, by omega, h⟩
    · exact fun h => h.2.2

end Nostr.Hex
