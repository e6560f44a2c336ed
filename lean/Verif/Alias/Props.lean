import Verif.Alias.Spec
import Verif.Wipe.HdProps

/-!
# Property theorems: results over their arguments (C195)

A caller who no longer needs an argument may pass it as the place of the result.
-/

namespace Nostr.Alias.Props
open Nostr Nostr.Text Nostr.Wipe Nostr.Alias Nostr.Alias.Spec
open Nostr.Hd (HdKey Crypto htonl memory4)

/-! ## Memory -/

theorem over_out {off a : Nat} {d b : Bytes} (h : a < off ∨ off + d.length ≤ a) (hb : off + d.length ≤ b.length) :
    (over off d b)[a]? = b[a]? := by
  unfold over
  rcases h with h | h
  · rw [List.append_assoc, List.getElem?_append_left (by simp; omega), List.getElem?_take, if_pos h]
  · rw [List.getElem?_append_right (by simp; omega), List.getElem?_drop]
    congr 1; simp; omega

theorem over_nil {off : Nat} {b : Bytes} : over off [] b = b := by simp [over]

theorem over_over {off : Nat} {d e b : Bytes} (hb : off + d.length + e.length ≤ b.length) :
    over (off + d.length) e (over off d b) = over off (d ++ e) b := by
  have l : (b.take off ++ d).length = off + d.length := by simp; omega
  rw [over, over, over]
  rw [List.take_append_of_le_length (by omega), List.take_of_length_le (by omega)]
  rw [List.drop_append, l, List.drop_of_length_le (by omega)]
  simp only [List.drop_drop, List.length_append, List.append_assoc, List.nil_append]
  congr 4; omega

theorem put_ok {m : Mem} {a : Nat} {bs : Bytes} (h : a + bs.length ≤ m.length) : put m a bs = .ok (over a bs m) := by
  rw [put, if_pos h]

theorem replaced_over {m : Mem} {q : Nat} {bs : Bytes} (h : q + bs.length ≤ m.length) : Replaced m q bs (over q bs m) := by
  refine ⟨m.take q, (m.drop q).take bs.length, m.drop (q + bs.length), ?_, rfl, by simp; omega, by simp; omega⟩
  rw [List.append_assoc, ← List.drop_drop, List.take_append_drop, List.take_append_drop]

theorem rd_eq {m : Mem} {a : Nat} {b : UInt8} (h : m[a]? = some b) : rd m a = .ok b := by rw [rd, h]

theorem at_get {m : Mem} {p : Nat} {bs : Bytes} (h : At m p bs) (j : Nat) (hj : j < bs.length) : m[p + j]? = bs[j]? := by
  obtain ⟨x, y, rfl, rfl⟩ := h
  rw [List.append_assoc, List.getElem?_append_right (by omega), List.getElem?_append_left (by omega)]
  congr 1; omega

theorem at_length {m : Mem} {p : Nat} {bs : Bytes} (h : At m p bs) : p + bs.length ≤ m.length := by
  obtain ⟨x, y, rfl, rfl⟩ := h
  simp only [List.length_append]; omega

theorem view_at {m : Mem} {p : Nat} {bs : Bytes} (h : ∀ j, j < bs.length → m[p + j]? = bs[j]?) : view m p bs.length = bs := by
  apply List.ext_getElem?
  intro j
  rw [view, List.getElem?_take]
  by_cases hj : j < bs.length
  · rw [if_pos hj, List.getElem?_drop, h j hj]
  · rw [if_neg hj, List.getElem?_eq_none (by omega)]

theorem textAt_eq {m : Mem} {a : Nat} {t : Bytes} (ht : ∀ c ∈ t, c ≠ 0) (h : ∀ j, j < t.length → m[a + j]? = t[j]?)
    (hz : m[a + t.length]? = some 0) : textAt m a = .ok t := by
  have e : (m.drop a).findIdx? (· == 0) = some t.length := by
    rw [List.findIdx?_eq_some_iff_getElem]
    have hl : a + t.length < m.length := by
      rcases Nat.lt_or_ge (a + t.length) m.length with h | h
      · exact h
      · rw [List.getElem?_eq_none h] at hz; cases hz
    refine ⟨by simp; omega, ?_, ?_⟩
    · rw [List.getElem?_eq_getElem hl] at hz
      simp only [List.getElem_drop, Option.some.inj hz]; rfl
    · intro j hj
      have hj' := h j hj
      rw [List.getElem?_eq_getElem (by omega), List.getElem?_eq_getElem hj] at hj'
      have := ht t[j] (List.getElem_mem hj)
      simp only [List.getElem_drop, Option.some.inj hj']
      simp [this]
  rw [textAt, e]
  exact congrArg _ (view_at h)

theorem holds_at {m : Mem} {p : Nat} {s : Bytes} (h : Holds m p s) : At m p (s ++ [0]) := h.2

theorem holds_get {m : Mem} {p : Nat} {s : Bytes} (h : Holds m p s) (j : Nat) (hj : j < s.length) : m[p + j]? = s[j]? := by
  rw [at_get (holds_at h) j (by simp; omega), List.getElem?_append_left hj]

theorem holds_end {m : Mem} {p : Nat} {s : Bytes} (h : Holds m p s) : m[p + s.length]? = some 0 := by
  rw [at_get (holds_at h) s.length (by simp)]; simp

theorem holds_text {m : Mem} {p : Nat} {s : Bytes} (h : Holds m p s) : textAt m p = .ok s :=
  textAt_eq h.1 (holds_get h) (holds_end h)

/-! ## Decoding -/

/-- What is still to be read has not been written yet. -/
theorem ahead {m : Mem} {p q n : Nat} {ds : Bytes} (hf : Fits p n q) (hq : q + ds.length ≤ m.length) {j : Nat} (hj : 2 * ds.length ≤ j)
    (hn : j ≤ n) : (over q ds m)[p + j]? = m[p + j]? := by
  cases ds with
  | nil => rw [over_nil]
  | cons d ds =>
    refine over_out ?_ hq
    simp only [List.length_cons] at *
    rcases hf with h | h
    · right; omega
    · left; omega

theorem decode_loop {m : Mem} {p q : Nat} {s : Bytes} (hs : Holds m p s) (hf : Fits p s.length q) (hq : q + s.length / 2 ≤ m.length) :
    ∀ (k : Nat) (ds : Bytes), 2 * (ds.length + k) = s.length →
      (∀ bs, Hex.pairs (s.drop (2 * ds.length)) = some bs →
        decodeLoop p q k ds.length (over q ds m) = .ok (true, over q (ds ++ bs) m) ∧ bs.length = k) ∧
      (Hex.pairs (s.drop (2 * ds.length)) = none →
        ∃ xs, xs.length ≤ s.length / 2 ∧ decodeLoop p q k ds.length (over q ds m) = .ok (false, over q xs m)) := by
  intro k
  induction k with
  | zero =>
    intro ds hk
    rw [List.drop_of_length_le (by omega)]
    refine ⟨fun bs h => ?_, fun h => by simp [Hex.pairs] at h⟩
    simp only [Hex.pairs, Option.some.injEq] at h
    subst h
    simp [decodeLoop]
  | succ k ih =>
    intro ds hk
    have g1 : 2 * ds.length < s.length := by omega
    have g2 : 2 * ds.length + 1 < s.length := by omega
    have e1 : s.drop (2 * ds.length) = s[2 * ds.length] :: s[2 * ds.length + 1] :: s.drop (2 * (ds.length + 1)) := by
      rw [List.drop_eq_getElem_cons g1, List.drop_eq_getElem_cons g2, show 2 * ds.length + 1 + 1 = 2 * (ds.length + 1) by omega]
    have r1 : rd (over q ds m) (p + 2 * ds.length) = .ok s[2 * ds.length] :=
      rd_eq (by rw [ahead hf (by omega) (by omega) (by omega), holds_get hs _ g1, List.getElem?_eq_getElem g1])
    have r2 : rd (over q ds m) (p + (2 * ds.length + 1)) = .ok s[2 * ds.length + 1] :=
      rd_eq (by rw [ahead hf (by omega) (by omega) (by omega), holds_get hs _ g2, List.getElem?_eq_getElem g2])
    rw [e1]
    simp only [Hex.pairs, decodeLoop, r1, r2, Res.bind_ok]
    cases h1 : Hex.nibble s[2 * ds.length] with
    | none => exact ⟨fun bs h => by simp at h, fun _ => ⟨ds, by omega, rfl⟩⟩
    | some v =>
      cases h2 : Hex.nibble s[2 * ds.length + 1] with
      | none => exact ⟨fun bs h => by simp at h, fun _ => ⟨ds, by omega, rfl⟩⟩
      | some w =>
        have pl : put (over q ds m) (q + ds.length) [UInt8.ofNat ((v <<< 4) ||| w)] = .ok (over q (ds ++ [UInt8.ofNat ((v <<< 4) ||| w)]) m) := by
          rw [put_ok (by rw [over_length (by omega)]; simp; omega), over_over (by simp; omega)]
        simp only [pl, Res.bind_ok]
        obtain ⟨i1, i2⟩ := ih (ds ++ [UInt8.ofNat ((v <<< 4) ||| w)]) (by simp; omega)
        simp only [List.length_append, List.length_cons, List.length_nil, Nat.zero_add] at i1 i2
        cases h3 : Hex.pairs (s.drop (2 * (ds.length + 1))) with
        | none => exact ⟨fun bs h => by simp at h, fun _ => i2 h3⟩
        | some bs' =>
          obtain ⟨j1, j2⟩ := i1 bs' h3
          refine ⟨fun bs h => ?_, fun h => by simp at h⟩
          simp only [Option.some.injEq] at h
          subst h
          rw [j1]
          exact ⟨by simp, by simp [j2]⟩

/-- C195: decoding hexadecimal in place. The result may lie at the text, before it, or behind it: the answer is that for a separate
result, and when the text is decoded its bytes stand there and nothing else has changed. -/
theorem C195_decode {m : Mem} {p q outLen : Nat} {s : Bytes} (hs : Holds m p s) (hf : Fits p s.length q) (hq : q + outLen ≤ m.length) :
    ∃ m', hexDecode m p q outLen = .ok ((Hex.hexDecode s outLen).map List.length, m') ∧
      (∀ bs, Hex.hexDecode s outLen = some bs → Replaced m q bs m') ∧
      (Hex.hexDecode s outLen = none → ∃ xs, xs.length ≤ outLen ∧ Replaced m q xs m') := by
  unfold hexDecode Hex.hexDecode
  simp only [holds_text hs, Res.bind_ok]
  by_cases hl : s.length % 2 ≠ 0 ∨ s.length / 2 > outLen
  · rw [if_pos hl, if_pos hl]
    exact ⟨m, rfl, fun bs h => (by cases h), fun _ => ⟨[], by simp, by simpa [over_nil] using replaced_over (m := m) (q := q) (bs := []) (by simp; omega)⟩⟩
  · rw [if_neg hl, if_neg hl]
    obtain ⟨i1, i2⟩ := decode_loop hs hf (by omega) (s.length / 2) [] (by simp; omega)
    simp only [List.length_nil, Nat.mul_zero, List.drop_zero, over_nil, List.nil_append] at i1 i2
    cases h : Hex.pairs s with
    | some bs =>
      obtain ⟨j1, j2⟩ := i1 bs h
      rw [j1]
      refine ⟨over q bs m, by simp [j2], fun x hx => ?_, fun h => by cases h⟩
      cases hx
      exact replaced_over (by omega)
    | none =>
      obtain ⟨xs, j1, j2⟩ := i2 h
      rw [j2]
      exact ⟨over q xs m, by simp, fun x hx => (by cases hx), fun _ => ⟨xs, by omega, replaced_over (by omega)⟩⟩

/-- The case: a text of six digits decoded into its own place. -/
example : Holds (c!"0aF9b3" ++ [0, 7]) 0 c!"0aF9b3" ∧ Fits 0 6 0 ∧
    hexDecode (c!"0aF9b3" ++ [0, 7]) 0 0 8 = .ok (some 3, [0x0a, 0xf9, 0xb3] ++ c!"9b3" ++ [0, 7]) :=
  ⟨⟨by decide, [], [7], rfl, rfl⟩, by simp [Fits], by decide +kernel⟩

/-- C195 holds no further: a result that begins at the third character of the text destroys what is still to be read. -/
theorem C195_decodeInside_refuted : ∃ (m : Mem) (s : Bytes), Holds m 0 s ∧ Hex.hexDecode s 2 = some [1, 0x10] ∧
    ∃ m', hexDecode m 0 2 2 = .ok (none, m') :=
  ⟨c!"0110" ++ [0], c!"0110", ⟨by decide, [], [], rfl, rfl⟩, by decide +kernel, _, rfl⟩

theorem scan_loop {lax : Bool} {m : Mem} {p q : Nat} {s : Bytes} (hs : Holds m p s) (hf : Fits p s.length q) (hl : s.length = 64) (hq : q + 32 ≤ m.length) :
    ∀ (k : Nat) (ds : Bytes), ds.length + k = 32 →
      (∀ bs, Hex.keyLoop lax k (s.drop (2 * ds.length)) = .ok bs →
        scanLoop lax p q k ds.length (over q ds m) = .ok (.ok (), over q (ds ++ bs) m) ∧ bs.length = k) ∧
      (∀ e, Hex.keyLoop lax k (s.drop (2 * ds.length)) = .err e →
        ∃ xs, xs.length ≤ 32 ∧ scanLoop lax p q k ds.length (over q ds m) = .ok (.err e, over q xs m)) ∧
      Hex.keyLoop lax k (s.drop (2 * ds.length)) ≠ .ub := by
  intro k
  induction k with
  | zero =>
    intro ds hk
    refine ⟨fun bs h => ?_, fun e h => by simp [Hex.keyLoop] at h, by simp [Hex.keyLoop]⟩
    simp only [Hex.keyLoop, Res.ok.injEq] at h
    subst h
    simp [scanLoop]
  | succ k ih =>
    intro ds hk
    have e1 : textAt (over q ds m) (p + ds.length * 2) = .ok (s.drop (2 * ds.length)) := by
      have el : (s.drop (2 * ds.length)).length = 64 - 2 * ds.length := by simp [hl]
      refine textAt_eq (fun c hc => hs.1 c (List.mem_of_mem_drop hc)) (fun j hj => ?_) ?_
      · have := ahead (m := m) (p := p) hf (ds := ds) (by omega) (j := 2 * ds.length + j) (by omega) (by omega)
        rw [show p + ds.length * 2 + j = p + (2 * ds.length + j) by omega, this, holds_get hs _ (by omega), List.getElem?_drop]
      · have := ahead (m := m) (p := p) hf (ds := ds) (by omega) (j := s.length) (by omega) (by omega)
        rw [show p + ds.length * 2 + (s.drop (2 * ds.length)).length = p + s.length by omega, this, holds_end hs]
    simp only [Hex.keyLoop, scanLoop, e1, Res.bind_ok]
    cases h1 : Hex.scan2 lax (s.drop (2 * ds.length)) with
    | none =>
      refine ⟨fun bs h => (by simp at h), fun e h => ?_, by simp⟩
      simp only [Res.err.injEq] at h
      subst h
      exact ⟨ds, by omega, rfl⟩
    | some b =>
      have pl : put (over q ds m) (q + ds.length) [b] = .ok (over q (ds ++ [b]) m) := by
        rw [put_ok (by rw [over_length (by omega)]; simp; omega), over_over (by simp; omega)]
      simp only [pl, Res.bind_ok]
      obtain ⟨i1, i2, i3⟩ := ih (ds ++ [b]) (by simp; omega)
      simp only [List.length_append, List.length_cons, List.length_nil, Nat.zero_add] at i1 i2 i3
      rw [List.drop_drop, show 2 * ds.length + 2 = 2 * (ds.length + 1) by omega]
      cases h3 : Hex.keyLoop lax k (s.drop (2 * (ds.length + 1))) with
      | ub => exact absurd h3 i3
      | err e =>
        refine ⟨fun bs h => (by simp at h), fun e' h => ?_, by simp⟩
        simp only [Res.bind_err, Res.err.injEq] at h
        subst h
        exact i2 e h3
      | ok bs' =>
        obtain ⟨j1, j2⟩ := i1 bs' h3
        refine ⟨fun bs h => ?_, fun e h => (by simp at h), by simp⟩
        simp only [Res.bind_ok, Res.ok.injEq] at h
        subst h
        rw [j1]
        exact ⟨by simp, by simp [j2]⟩

/-- C195: reading a key from text in place. The key may lie at the text: the status is that for a separate key, and when there is
a key it stands there and nothing else has changed. -/
theorem C195_key {lax : Bool} {m : Mem} {p q : Nat} {s : Bytes} (hs : Holds m p s) (hf : Fits p s.length q) (hq : q + 32 ≤ m.length) :
    ∃ m', keyFromHex lax m p q = .ok ((Hex.keyFromHex lax s >>= fun _ => .ok ()), m') ∧
      (∀ key, Hex.keyFromHex lax s = .ok key → Replaced m q key m') ∧ ∃ xs, xs.length ≤ 32 ∧ Replaced m q xs m' := by
  unfold keyFromHex Hex.keyFromHex
  simp only [holds_text hs, Res.bind_ok]
  by_cases hl : s.length ≠ 64
  · rw [if_pos hl, if_pos hl]
    exact ⟨m, rfl, fun bs h => (by cases h), [], by simp, by simpa [over_nil] using replaced_over (m := m) (q := q) (bs := []) (by simp; omega)⟩
  · rw [if_neg hl, if_neg hl]
    obtain ⟨i1, i2, i3⟩ := scan_loop (lax := lax) hs hf (by omega) hq 32 [] (by simp)
    simp only [List.length_nil, Nat.mul_zero, List.drop_zero, over_nil, List.nil_append] at i1 i2 i3
    cases h : Hex.keyLoop lax 32 s with
    | ub => exact absurd h i3
    | ok bs =>
      obtain ⟨j1, j2⟩ := i1 bs h
      rw [j1]
      refine ⟨over q bs m, by simp, fun x hx => ?_, bs, by omega, replaced_over (by omega)⟩
      cases hx
      exact replaced_over (by omega)
    | err e =>
      obtain ⟨xs, j1, j2⟩ := i2 e h
      rw [j2]
      exact ⟨over q xs m, by simp, fun x hx => (by cases hx), xs, by omega, replaced_over (by omega)⟩

def sample : Bytes := c!"00112233445566778899aabbccddeeff00112233445566778899aabbccddeeff"

example : Holds (sample ++ [0]) 0 sample ∧ Fits 0 64 0 ∧
    (keyFromHex true (sample ++ [0]) 0 0 >>= fun r => .ok (r.1, r.2.take 4)) = .ok (.ok (), [0, 0x11, 0x22, 0x33]) :=
  ⟨⟨by decide +kernel, [], [], rfl, rfl⟩, by simp [Fits], by decide +kernel⟩

/-! ## Encoding -/

theorem encode_two (b : UInt8) : (Hex.hexEncode [b]).length = 2 := rfl

theorem encode_append (xs : Bytes) (b : UInt8) : Hex.hexEncode (xs ++ [b]) = Hex.hexEncode xs ++ Hex.hexEncode [b] := by
  simp [Hex.hexEncode]

theorem encode_length (xs : Bytes) : (Hex.hexEncode xs).length = 2 * xs.length := by
  induction xs with
  | nil => rfl
  | cons x xs ih => simp only [Hex.hexEncode, List.flatMap_cons, List.length_append, List.length_cons, List.length_nil] at *; omega

theorem over_more {off : Nat} {d e b : Bytes} (h : d.length ≤ e.length) (hb : off + e.length ≤ b.length) :
    over off e (over off d b) = over off e b := by
  have l : (b.take off).length = off := by simp; omega
  rw [over, over, over, List.append_assoc (b.take off), List.take_append_of_le_length (by omega), List.take_of_length_le (by omega)]
  congr 1
  rw [List.drop_append, List.drop_of_length_le (l := b.take off) (by omega), l, List.drop_append, List.nil_append]
  rw [List.drop_of_length_le (by omega), List.nil_append, List.drop_drop]
  congr 1; omega

theorem encode_loop {m : Mem} {p q : Nat} {bs : Bytes} (hb : At m p bs) (hq : q + (2 * bs.length + 1) ≤ m.length)
    (hd : q + (2 * bs.length + 1) ≤ p ∨ p + bs.length ≤ q) :
    ∀ (k i : Nat), i + k = bs.length → (i = 0 → 0 < k) →
      encodeLoop p q k i (if i = 0 then m else over q (Hex.hexEncode (bs.take i) ++ [0]) m) = .ok (over q (Hex.hexEncode bs ++ [0]) m) := by
  intro k
  induction k with
  | zero =>
    intro i hi h0
    rw [if_neg (by omega), show i = bs.length by omega, List.take_length]; rfl
  | succ k ih =>
    intro i hi _
    have hlt : i < bs.length := by omega
    have bt : bs.take (i + 1) = bs.take i ++ [bs[i]] := by rw [List.take_succ_eq_append_getElem hlt]
    have hl : (Hex.hexEncode (bs.take i)).length = 2 * i := by rw [encode_length, List.length_take]; omega
    have rdm : rd (if i = 0 then m else over q (Hex.hexEncode (bs.take i) ++ [0]) m) (p + i) = .ok bs[i] := by
      refine rd_eq ?_
      have hm : m[p + i]? = some bs[i] := by rw [at_get hb i hlt, List.getElem?_eq_getElem hlt]
      split
      · exact hm
      · rw [over_out (by simp only [List.length_append, hl, List.length_singleton]; omega) (by simp only [List.length_append, hl, List.length_singleton]; omega), hm]
    have pt : put (if i = 0 then m else over q (Hex.hexEncode (bs.take i) ++ [0]) m) (q + 2 * i) (Hex.hexEncode [bs[i]] ++ [0]) =
        .ok (over q (Hex.hexEncode (bs.take (i + 1)) ++ [0]) m) := by
      by_cases h0 : i = 0
      · subst h0
        rw [if_pos rfl, put_ok (by simp only [List.length_append, encode_two, List.length_singleton]; omega), bt]; rfl
      · rw [if_neg h0, put_ok (by
          rw [over_length (by simp only [List.length_append, hl, List.length_singleton]; omega)]
          simp only [List.length_append, encode_two, List.length_singleton]; omega)]
        rw [bt, encode_append]
        congr 1
        have e1 : over q (Hex.hexEncode (bs.take i) ++ [0]) m = over (q + 2 * i) [0] (over q (Hex.hexEncode (bs.take i)) m) := by
          rw [← hl, over_over (by simp only [List.length_singleton]; omega)]
        rw [e1, over_more (by simp [encode_two]) (by
          rw [over_length (by omega)]; simp only [List.length_append, encode_two, List.length_singleton]; omega), ← hl,
          over_over (by simp only [List.length_append, encode_two, List.length_singleton]; omega), List.append_assoc]
    simp only [encodeLoop, rdm, Res.bind_ok, pt]
    have := ih (i + 1) (by omega) (by omega)
    rwa [if_neg (by omega)] at this

/-- C195 (part): encoding a key as text gives the text when key and text lie apart. -/
theorem C195_encode_partial {m : Mem} {p q size : Nat} {key : Bytes} (hk : At m p key) (hl : key.length = 32) (hs : 65 ≤ size) (hq : q + 65 ≤ m.length)
    (hd : q + 65 ≤ p ∨ p + 32 ≤ q) :
    ∃ m', keyToHex m p q size = .ok (.ok (), m') ∧ Replaced m q (Hex.hexEncode key ++ [0]) m' := by
  have e := encode_loop hk (by rw [hl]; exact hq) (by rw [hl]; exact hd) 32 0 (by omega) (by omega)
  rw [if_pos rfl] at e
  have el : (Hex.hexEncode key).length = 64 := by rw [encode_length]; omega
  refine ⟨over q (Hex.hexEncode key ++ [0]) m, ?_, replaced_over (by simp only [List.length_append, el, List.length_singleton]; omega)⟩
  rw [keyToHex, if_neg (by omega), e, Res.bind_ok, put_ok (by
    rw [over_length (by simp only [List.length_append, el, List.length_singleton]; omega)]; simp only [List.length_singleton]; omega), Res.bind_ok]
  congr 2
  rw [← over_over (off := q) (d := Hex.hexEncode key) (e := [0]) (by simp only [List.length_singleton]; omega), el,
    over_more (by simp) (by rw [over_length (by omega)]; simp only [List.length_singleton]; omega)]

example : (keyToHex (List.replicate 32 0xa7 ++ List.replicate 65 1) 0 32 65 >>= fun r => .ok (r.2.drop 30)) =
    .ok ([0xa7, 0xa7] ++ (List.replicate 32 (c!"a7")).flatten ++ [0]) ∧ At (List.replicate 32 0xa7 ++ List.replicate 65 1) 0 (List.replicate 32 0xa7) :=
  ⟨by decide +kernel, [], List.replicate 65 1, rfl, rfl⟩

theorem encode_first {m : Mem} {p : Nat} {b c d : UInt8} {rest : Bytes} (hk : At m p (b :: c :: d :: rest)) :
    ∃ m1, put m p (Hex.hexEncode [b] ++ [0]) = .ok m1 ∧ m1.length = m.length ∧ rd m1 (p + 1) = .ok (Hex.digit (b.toNat &&& 0x0f)) := by
  have hl := at_length hk
  simp only [List.length_cons] at hl
  have e3 : (Hex.hexEncode [b] ++ [0]).length = 3 := rfl
  refine ⟨_, put_ok (by omega), over_length (by omega), rd_eq ?_⟩
  unfold over
  rw [List.append_assoc, List.getElem?_append_right (by simp; omega), List.getElem?_append_left (by simp [encode_two]; omega)]
  rw [show p + 1 - (List.take p m).length = 1 by simp; omega]
  rfl

/-- The loop writes at `q + 2 * i` and behind it only. -/
theorem encode_keeps {p q : Nat} : ∀ (k i : Nat) (m : Mem), p + i + k ≤ m.length → q + 2 * i + (2 * k + 1) ≤ m.length →
    ∃ m', encodeLoop p q k i m = .ok m' ∧ m'.length = m.length ∧ ∀ a, a < q + 2 * i → m'[a]? = m[a]? := by
  intro k
  induction k with
  | zero => intro i m _ _; exact ⟨m, rfl, rfl, fun _ _ => rfl⟩
  | succ k ih =>
    intro i m h1 h2
    have e3 : ∀ b, (Hex.hexEncode [b] ++ [0]).length = 3 := fun _ => rfl
    have hr : rd m (p + i) = .ok (m[p + i]'(by omega)) := rd_eq (by rw [List.getElem?_eq_getElem (by omega)])
    have hp := put_ok (m := m) (a := q + 2 * i) (bs := Hex.hexEncode [m[p + i]'(by omega)] ++ [0]) (by rw [e3]; omega)
    have hl := over_length (off := q + 2 * i) (d := Hex.hexEncode [m[p + i]'(by omega)] ++ [0]) (b := m) (by rw [e3]; omega)
    obtain ⟨m', j1, j2, j3⟩ := ih (i + 1) (over (q + 2 * i) (Hex.hexEncode [m[p + i]'(by omega)] ++ [0]) m) (by omega) (by omega)
    refine ⟨m', by simp only [encodeLoop, hr, hp, Res.bind_ok, j1], by omega, fun a ha => ?_⟩
    rw [j3 a (by omega), over_out (.inl ha) (by rw [e3]; omega)]

/-- C195 fails for encoding: a key written as text over itself becomes another text. Whatever the key, its third and fourth digit
are those of the second digit of its first byte, taken as a character. -/
theorem C195_encode_refuted {m : Mem} {p size : Nat} {b c d : UInt8} {rest : Bytes} (hk : At m p (b :: c :: d :: rest)) (hl : rest.length = 29)
    (hs : 65 ≤ size) (hq : p + 65 ≤ m.length) :
    ∃ m', keyToHex m p p size = .ok (.ok (), m') ∧ view m' (p + 2) 2 = Hex.hexEncode [Hex.digit (b.toNat &&& 0x0f)] := by
  obtain ⟨m1, a1, a2, a3⟩ := encode_first hk
  have e3 : ∀ b, (Hex.hexEncode [b] ++ [0]).length = 3 := fun _ => rfl
  have r0 : rd m (p + 0) = .ok b := rd_eq (by rw [at_get hk 0 (by simp)]; rfl)
  have hp := put_ok (m := m1) (a := p + 2) (bs := Hex.hexEncode [Hex.digit (b.toNat &&& 0x0f)] ++ [0]) (by rw [e3]; omega)
  have h2 := over_length (off := p + 2) (d := Hex.hexEncode [Hex.digit (b.toNat &&& 0x0f)] ++ [0]) (b := m1) (by rw [e3]; omega)
  obtain ⟨m', j1, j2, j3⟩ := encode_keeps (p := p) (q := p) 30 2 (over (p + 2) (Hex.hexEncode [Hex.digit (b.toNat &&& 0x0f)] ++ [0]) m1) (by omega) (by omega)
  have hl' : encodeLoop p p 32 0 m = .ok m' := by
    rw [encodeLoop, r0, Res.bind_ok, Nat.mul_zero, Nat.add_zero, a1, Res.bind_ok, encodeLoop]
    simp only [a3, Res.bind_ok, Nat.zero_add, Nat.mul_one, hp, Nat.reduceAdd, j1]
  refine ⟨over (p + 64) [0] m', ?_, ?_⟩
  · rw [keyToHex, if_neg (by omega), hl', Res.bind_ok, put_ok (by simp only [List.length_singleton]; omega), Res.bind_ok]
  · refine view_at (bs := Hex.hexEncode [Hex.digit (b.toNat &&& 0x0f)]) (fun j hj => ?_)
    rw [encode_two] at hj
    rw [over_out (.inl (by omega)) (by simp only [List.length_singleton]; omega), j3 _ (by omega)]
    unfold over
    rw [List.append_assoc, List.getElem?_append_right (by simp; omega), List.append_assoc, List.getElem?_append_left (by rw [encode_two]; simp; omega)]
    congr 1; simp; omega

/-- The case: the key of zeros becomes a text that begins with 0030. -/
example : At (List.replicate 32 0 ++ List.replicate 33 9) 0 (0 :: 0 :: 0 :: List.replicate 29 0) ∧
    (keyToHex (List.replicate 32 0 ++ List.replicate 33 9) 0 0 65 >>= fun r => .ok (r.2.take 4)) = .ok c!"0030" :=
  ⟨⟨[], List.replicate 33 9, by decide +kernel, rfl⟩, by decide +kernel⟩

/-! ## Keypairs -/

/-- C195 (part): a keypair made of a private key that lies apart from the pair's own. -/
theorem C195_import_partial {C : Keys.Curve} {m : Mem} {k src : Nat} {key pub : Bytes} (hk : At m src key) (hl : key.length = 32)
    (hm : k + 68 ≤ m.length) (hd : src + 32 ≤ k ∨ k + 32 ≤ src) (hv : C.valid key = true) (hp : C.pub key = some pub) (hpl : pub.length = 32) :
    ∃ m', fromPrivate C m k src = .ok (.ok (), m') ∧ Replaced m k (key ++ pub ++ [1, 0, 0, 0]) m' := by
  have hs := at_length hk
  have hview : view m src 32 = key := by rw [← hl]; exact view_at (at_get hk)
  have hc : memcpy m k src 32 = .ok (over k key m) := by
    rw [memcpy, if_neg (by omega), if_pos (by omega), hview, put_ok (by omega)]
  have hv2 : view (over k key m) src 32 = key := by
    rw [← hl]
    refine view_at (fun j hj => ?_)
    rw [over_out (by omega) (by omega), at_get hk j hj]
  have o1 : over (k + 32) pub (over k key m) = over k (key ++ pub) m := by rw [← hl, over_over (by omega)]
  have o2 : over (k + 64) [1, 0, 0, 0] (over k (key ++ pub) m) = over k (key ++ pub ++ [1, 0, 0, 0]) m := by
    rw [show k + 64 = k + (key ++ pub).length by simp; omega, over_over (by simp; omega)]
  have l1 := over_length (off := k) (d := key) (b := m) (by omega)
  have l2 := over_length (off := k) (d := key ++ pub) (b := m) (by simp; omega)
  refine ⟨_, ?_, replaced_over (by simp; omega)⟩
  rw [fromPrivate, hc, Res.bind_ok, hv2, if_pos hv, hp]
  simp only []
  rw [put_ok (by omega), Res.bind_ok, o1, put_ok (by simp; omega), Res.bind_ok, o2]

/-- C195 fails for keypairs: made of its own private key, the pair is copied onto itself, which C leaves undefined; so it is, for
every text that is a key, in making a keypair of a text, whose own private key is passed on. -/
theorem C195_import_refuted {lax : Bool} {C : Keys.Curve} {m : Mem} {k : Nat} :
    fromPrivate C m k k = .ub ∧
      ∀ (p : Nat) (s key : Bytes), Holds m p s → Fits p s.length k → k + 32 ≤ m.length → Hex.keyFromHex lax s = .ok key → fromHex lax C m k p = .ub := by
  have own : ∀ m, fromPrivate C m k k = .ub := fun m => by
    rw [fromPrivate, memcpy, if_pos (by omega)]; rfl
  refine ⟨own m, fun p s key hs hf hq hk => ?_⟩
  obtain ⟨m', h1, _⟩ := C195_key (lax := lax) hs hf hq
  rw [fromHex, h1, hk]
  exact own m'

/-- The case: a text that is a key, behind the keypair. -/
example : Holds (List.replicate 68 0 ++ (sample ++ [0]) ++ []) 68 sample ∧ Fits 68 64 0 ∧ ∃ key, Hex.keyFromHex true sample = .ok key :=
  ⟨⟨by decide +kernel, _, [], rfl, rfl⟩, by simp [Fits], _, rfl⟩

/-! ## Derived keys -/

theorem set_same (s : Store) (a : Nat) (k : HdKey) : s.set a k a = k := by simp [Store.set]

theorem set_other (s : Store) {a b : Nat} (h : b ≠ a) (k : HdKey) : s.set a k b = s b := by simp [Store.set, h]

theorem set_set (s : Store) (a : Nat) (k l : HdKey) : (s.set a k).set a l = s.set a l := by
  funext b; simp only [Store.set]; split <;> rfl

/-- With a child that lies apart, the call is the one followed in `Verif/Wipe/Hd.lean`. -/
theorem derive_apart {finish : Crypto → Wipe.Hd.Frame → HdKey → Wipe.Hd.Out} {C : Crypto} {f : Wipe.Hd.Frame} {s : Store} {pa index ca : Nat} (h : pa ≠ ca) :
    derive finish C f s pa index ca =
      ((Wipe.Hd.derive finish C f (s pa) index (s ca)).res, s.set ca (Wipe.Hd.derive finish C f (s pa) index (s ca)).key) := by
  unfold derive Wipe.Hd.derive
  simp only [set_other s h, set_same, set_set]
  cases Wipe.Hd.deriveData C f (s pa) index with
  | none => rfl
  | some g =>
    simp only []
    cases C.hmac512 (s pa).chain g.data with
    | none => rfl
    | some x =>
      simp only [set_other s h]
      cases C.tweakAdd (over 0 (s pa).priv g.priv) ((over 0 x g.hash).take 32) <;> rfl

/-- C195 (part): deriving a child into another key gives the child, and leaves the parent and all other keys as they are. -/
theorem C195_derive_partial {n : Nat} {finish : Crypto → Wipe.Hd.Frame → HdKey → Wipe.Hd.Out} {C : Crypto} {f : Wipe.Hd.Frame} {s : Store} {pa index ca : Nat}
    (hC : Wipe.Hd.Props.Sizes C) (hF : Wipe.Hd.Props.Finishes n C finish) (hf : Wipe.Hd.Props.Frame.Sized n f) (hp : Wipe.Hd.Props.KeySized (s pa))
    (hc : Wipe.Hd.Props.KeySized (s ca)) (h : pa ≠ ca) :
    Nostr.Hd.derive C (s pa) index = ((derive finish C f s pa index ca).1 >>= fun _ => .ok ((derive finish C f s pa index ca).2 ca)) ∧
      ∀ a, a ≠ ca → (derive finish C f s pa index ca).2 a = s a := by
  rw [derive_apart h]
  obtain ⟨_, _, _, d4, _⟩ := Wipe.Hd.Props.derive_all (index := index) hC hF hf hp hc
  exact ⟨by rw [d4]; simp only [set_same], fun a ha => set_other s ha _⟩

/-- What the libraries do with the key of zeros, which is no private key: refuse it. -/
def RefusesZero (C : Crypto) : Prop :=
  C.pubCompressed (List.replicate 32 0) = none ∧ ∀ t, C.tweakAdd (List.replicate 32 0) t = none

/-- C195 fails for children: the child is cleared before the parent is read. Deriving into the parent itself never succeeds, whatever
the key and the index, and the private and public key are gone. -/
theorem C195_derive_refuted {n : Nat} {finish : Crypto → Wipe.Hd.Frame → HdKey → Wipe.Hd.Out} {C : Crypto} {f : Wipe.Hd.Frame} {s : Store} {a index : Nat}
    (hC : Wipe.Hd.Props.Sizes C) (hf : Wipe.Hd.Props.Frame.Sized n f) (hk : Wipe.Hd.Props.KeySized (s a)) (hz : RefusesZero C) :
    ∃ e, (derive finish C f s a index a).1 = .err e ∧ ((derive finish C f s a index a).2 a).priv = List.replicate 32 0 ∧
      ((derive finish C f s a index a).2 a).pub = List.replicate 32 0 := by
  unfold derive
  simp only [set_same, set_set, Wipe.Hd.Props.blank_eq hk, Wipe.Hd.Props.deriveData_eq hC hf Wipe.Hd.Props.zero_sized]
  have e0 : (Wipe.Hd.Props.zeroKey).priv = List.replicate 32 0 := rfl
  have e1 : over 0 (List.replicate 32 0) f.priv = List.replicate 32 0 := over_all (by simp [hf.2.2.1])
  simp only [e0, hz.1]
  split
  · exact ⟨_, rfl, by simp only [set_same]; rfl, by simp only [set_same]; rfl⟩
  · rename_i g hg
    have gp : over 0 (List.replicate 32 0) g.priv = List.replicate 32 0 := by
      split at hg
      · cases hg; exact e1
      · cases hg
    split
    · exact ⟨_, rfl, by simp only [set_same]; rfl, by simp only [set_same]; rfl⟩
    · simp only [gp, hz.2]
      exact ⟨_, rfl, by simp only [set_same, e0], by simp only [set_same]; rfl⟩

/-- C195: deriving along a path in place. The result may be the key one starts from: status and key are those for a separate result,
and a call that fails leaves every key as it was. The path `m` alone is left out. -/
theorem C195_path_partial {C : Crypto} {s : Store} {ma da : Nat} {path : Bytes} (h : path ≠ c!"m" ∨ ma ≠ da) :
    Nostr.Hd.derivePath C (s ma) path = ((derivePath C s ma path da).1 >>= fun _ => .ok ((derivePath C s ma path da).2 da)) ∧
      (∀ a, a ≠ da → (derivePath C s ma path da).2 a = s a) ∧
      ((derivePath C s ma path da).1 ≠ .ok () → (derivePath C s ma path da).2 = s) := by
  by_cases h1 : path = [0x6d]
  · subst h1
    have h : ma ≠ da := h.resolve_left (fun h => h rfl)
    have e : derivePath C s ma [0x6d] da = (.ok (), s.set da (s ma)) := by simp only [derivePath, if_neg h]
    rw [e]
    exact ⟨by simp [Nostr.Hd.derivePath, set_same], fun a ha => set_other s ha _, fun h => absurd rfl h⟩
  · by_cases h2 : ∃ rest, path = 0x6d :: 0x2f :: rest
    · obtain ⟨rest, rfl⟩ := h2
      simp only [derivePath, Nostr.Hd.derivePath]
      cases Nostr.Hd.pathLoop C (tokens 0x2f rest) (s ma) with
      | ok k => exact ⟨by simp [set_same], fun a ha => set_other s ha _, fun h => absurd rfl h⟩
      | err e => exact ⟨rfl, fun _ _ => rfl, fun _ => rfl⟩
      | ub => exact ⟨rfl, fun _ _ => rfl, fun _ => rfl⟩
    · have e1 : derivePath C s ma path da = (.err .invalidParam, s) := by
        unfold derivePath
        split
        · exact absurd rfl h1
        · exact absurd ⟨_, rfl⟩ h2
        · rfl
      have e2 : Nostr.Hd.derivePath C (s ma) path = .err .invalidParam := by
        unfold Nostr.Hd.derivePath
        split
        · exact absurd rfl h1
        · exact absurd ⟨_, rfl⟩ h2
        · rfl
      rw [e1, e2]
      exact ⟨rfl, fun _ _ => rfl, fun _ => rfl⟩

/-- C195 fails for the path `m`: in place, the key is copied onto itself. -/
theorem C195_path_refuted {C : Crypto} {s : Store} {a : Nat} : (derivePath C s a c!"m" a).1 = .ub := by
  simp [derivePath]

/-! ## A case for the derived keys -/

/-- The toy library of `Verif/Wipe/HdProps.lean`, refusing the key of zeros. -/
def strict : Crypto :=
  { Wipe.Hd.Props.toy with
    pubCompressed := fun k => if k = List.replicate 32 0 then none else Wipe.Hd.Props.toy.pubCompressed k
    tweakAdd := fun k t => if k = List.replicate 32 0 then none else Wipe.Hd.Props.toy.tweakAdd k t }

theorem strict_sizes : Wipe.Hd.Props.Sizes strict := by
  obtain ⟨h1, h2, h3, h4⟩ := Wipe.Hd.Props.toy_sizes
  refine ⟨h1, fun k c e => ?_, fun k t c e => ?_, h4⟩
  · simp only [strict] at e
    split at e
    · cases e
    · exact h2 _ _ e
  · simp only [strict] at e
    split at e
    · cases e
    · exact h3 _ _ _ e

example : RefusesZero strict := ⟨by simp [strict], fun t => by simp [strict]⟩

/-- Apart, the child is derived; in place, it is refused and the key is gone; along a path, it is derived in place. -/
example : (derive Wipe.Hd.childNc strict Wipe.Hd.Props.toyFrame (fun _ => Wipe.Hd.Props.toyKey) 0 1 1).1 = .ok () ∧
    (derive Wipe.Hd.childNc strict Wipe.Hd.Props.toyFrame (fun _ => Wipe.Hd.Props.toyKey) 0 1 0).1 = .err .invalidKey ∧
    ((derive Wipe.Hd.childNc strict Wipe.Hd.Props.toyFrame (fun _ => Wipe.Hd.Props.toyKey) 0 1 0).2 0).priv = List.replicate 32 0 ∧
    (derivePath strict (fun _ => Wipe.Hd.Props.toyKey) 0 c!"m/1" 0).1 = .ok () := by decide +kernel

end Nostr.Alias.Props
