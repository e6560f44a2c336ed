import Verif.Wipe.HdProps
import Verif.Hd.Props

/-! # Property theorems: what handling mnemonics leaves in memory (C162) -/

namespace Nostr.Wipe.Hd.Words
open Nostr Nostr.Text Nostr.Wipe Nostr.Wipe.Hd Nostr.Wipe.Spec Nostr.Wipe.Hd.Props
open Nostr.Hd (Crypto HdKey memory4 wordIndex words readWords)
open Nostr.Hd.Spec (Sha)

/-! ## The array of word numbers -/

theorem getD_over {off i : Nat} {d b : Bytes} (h : off + d.length ≤ b.length) :
    (over off d b).getD i 0 = if off ≤ i ∧ i < off + d.length then d.getD (i - off) 0 else b.getD i 0 := by
  simp only [over, List.getD_eq_getElem?_getD, List.append_assoc]
  by_cases h1 : i < off
  · rw [if_neg (by omega), List.getElem?_append_left (by simp; omega), List.getElem?_take_of_lt h1]
  · rw [List.getElem?_append_right (by simp; omega)]
    simp only [List.length_take, Nat.min_eq_left (show off ≤ b.length by omega)]
    by_cases h2 : i < off + d.length
    · rw [if_pos ⟨by omega, h2⟩, List.getElem?_append_left (by omega)]
    · rw [if_neg (by omega), List.getElem?_append_right (by omega), List.getElem?_drop]
      congr 2
      omega

theorem indexWord_same {ix : Bytes} {n i : Nat} (hl : 4 * n + 4 ≤ ix.length) (hi : i < 65536) : indexWord (over (4 * n) (memory4 i) ix) n = i := by
  have h1 := getD_over (off := 4 * n) (i := 4 * n) (d := memory4 i) (b := ix) hl
  have h2 := getD_over (off := 4 * n) (i := 4 * n + 1) (d := memory4 i) (b := ix) hl
  rw [if_pos ⟨Nat.le_refl _, by rw [memory4_length]; omega⟩] at h1
  rw [if_pos ⟨by omega, by rw [memory4_length]; omega⟩] at h2
  simp only [indexWord, h1, h2, Nat.sub_self, Nat.add_sub_cancel_left]
  simp [memory4]
  omega

theorem indexWord_other {ix : Bytes} {n i j : Nat} (hl : 4 * n + 4 ≤ ix.length) (hj : j ≠ n) :
    indexWord (over (4 * n) (memory4 i) ix) j = indexWord ix j := by
  simp only [indexWord]
  rw [getD_over hl, getD_over hl, if_neg (by rw [memory4_length]; omega), if_neg (by rw [memory4_length]; omega)]

theorem wordIndex_lt {w : Bytes} {i : Nat} (h : wordIndex w = some i) : i < 2048 := by
  have := (Nostr.Hd.wordIndex_iff w i).1 h
  have := (List.getElem?_eq_some_iff.1 this).1
  rw [Nostr.Hd.words_length] at this
  exact this

/-- The loop over the words fills the array with the numbers the value model computes. -/
theorem lookUp_ok : ∀ (ws : List Bytes) (n : Nat) (ix : Bytes), ix.length = 96 → n ≤ 24 →
    (lookUp ws n ix).2.length = 96 ∧
    match readWords ws n with
    | .ok is => (lookUp ws n ix).1 = some (n + is.length) ∧ n + is.length ≤ 24 ∧ (∀ j < n, indexWord (lookUp ws n ix).2 j = indexWord ix j) ∧
        ∀ j, j < is.length → indexWord (lookUp ws n ix).2 (n + j) = is.getD j 0
    | .err x => x = .invalidParam ∧ (lookUp ws n ix).1 = none
    | .ub => False
  | [], n, ix, hl, hn => by simp [lookUp, readWords, hl, hn]
  | w :: ws, n, ix, hl, hn => by
      unfold lookUp readWords
      by_cases h : n < 24
      · rw [if_pos h, if_pos h]
        cases hw : wordIndex w with
        | none => simp [hl]
        | some i =>
          have hi := wordIndex_lt hw
          have hb : 4 * n + (memory4 i).length ≤ ix.length := by rw [memory4_length]; omega
          obtain ⟨r1, r2⟩ := lookUp_ok ws (n + 1) (over (4 * n) (memory4 i) ix) (by rw [over_length hb, hl]) (by omega)
          refine ⟨r1, ?_⟩
          simp only
          cases hr : readWords ws (n + 1) with
          | ub => rw [hr] at r2; exact r2
          | err x => rw [hr] at r2; exact r2
          | ok is =>
            rw [hr] at r2
            obtain ⟨a, b, c, d⟩ := r2
            simp only [Res.bind_ok, Res.pure_eq]
            refine ⟨by rw [a, List.length_cons]; congr 1; omega, by rw [List.length_cons]; omega, ?_, ?_⟩
            · intro j hj
              rw [c j (by omega), indexWord_other (by omega) (by omega)]
            · intro j hj
              cases j with
              | zero => rw [show n + 0 = n from rfl, c n (by omega), indexWord_same (by omega) (by omega)]; rfl
              | succ j =>
                have := d j (by simpa using hj)
                rw [show n + (j + 1) = n + 1 + j from by omega, this]; rfl
      · rw [if_neg h, if_neg h]; simp [hl]

/-! ## Validation -/

/-- The sizes of the buffers, in bytes. -/
def WordFrame.Sized (f : WordFrame) : Prop := f.indices.length = 96 ∧ f.entropy.length = 33 ∧ f.hash.length = 32

theorem check_ok {C : Crypto} {f : WordFrame} {is : List Nat} {eb cs : Nat} (hf : WordFrame.Sized f) (hs : Sha C.sha256) (hl : is.length ≤ 24) :
    ∃ e, Nostr.Hd.wordLoop is 0 (List.replicate 33 0) = .ok e ∧
      checkW C f is eb cs = (Nostr.Hd.checkSum C e eb cs, ⟨f.indices, List.replicate 33 0, List.replicate 32 0⟩) := by
  obtain ⟨f1, f2, f3⟩ := hf
  obtain ⟨e, h1, h2⟩ := Nostr.Hd.wordLoop_ok is 0 [] (List.replicate 33 0) rfl (by omega) Nostr.Hd.holds_zero
  refine ⟨e, h1, ?_⟩
  have e1 : over 0 (List.replicate 33 0) f.entropy = List.replicate 33 0 := over_all (by simp [f2])
  have w1 := wipe_all (n := 33) (b := e) h2.1.symm
  have e2 : over 0 (C.sha256 (e.take eb)) f.hash = C.sha256 (e.take eb) := over_all (by rw [hs, f3])
  have w2 := wipe_all (n := 32) (b := C.sha256 (e.take eb)) (hs _).symm
  simp only [checkW, e1, h1, w1, h2.1, e2, w2, hs (e.take eb)]

theorem wiped_text (t : Bytes) : wipe t.length (t ++ [0]) = List.replicate (t.length + 1) 0 := by
  simp [wipe, over, List.replicate_succ']

theorem validate_all {C : Crypto} {f : WordFrame} {m : Bytes} (hf : WordFrame.Sized f) (hs : Sha C.sha256) :
    (validate C f m).1.1 = Nostr.Hd.validate C m ∧ WordFrame.Sized (validate C f m).1.2 ∧
    Clean [] [f.entropy, f.hash] [(validate C f m).1.2.entropy, (validate C f m).1.2.hash] ∧
    (∀ b ∈ (validate C f m).2, b = List.replicate b.length 0) ∧
    (Nostr.Hd.validate C m = .ok () → ∃ n, tokens 0x20 m = (List.range n).map fun i => words.getD (indexWord (validate C f m).1.2.indices i) []) := by
  have hf' := hf
  obtain ⟨f1, f2, f3⟩ := hf
  unfold validate Nostr.Hd.validate
  by_cases hm : m = []
  · rw [if_pos hm, if_pos hm]
    exact ⟨rfl, hf', Clean.refl _, by simp, fun h => by cases h⟩
  · rw [if_neg hm, if_neg hm]
    have e1 : over 0 (List.replicate 96 0) f.indices = List.replicate 96 0 := over_all (by simp [f1])
    simp only [e1, wiped_text]
    obtain ⟨r1, r2⟩ := lookUp_ok (tokens 0x20 m) 0 (List.replicate 96 0) (by simp) (by omega)
    have block : ∀ b ∈ [List.replicate (m.length + 1) (0 : UInt8)], b = List.replicate b.length 0 := by
      intro b hb; rw [List.mem_singleton.1 hb, List.length_replicate]
    generalize lookUp (tokens 0x20 m) 0 (List.replicate 96 0) = lu at r1 r2 ⊢
    obtain ⟨lu1, ix⟩ := lu
    simp only at r1 r2
    have sz : WordFrame.Sized { f with indices := ix } := ⟨r1, f2, f3⟩
    cases hr : readWords (tokens 0x20 m) 0 with
    | ub => rw [hr] at r2; exact absurd r2 id
    | err x =>
      rw [hr] at r2
      rw [r2.1, r2.2]
      exact ⟨rfl, sz, Clean.refl _, block, fun h => by cases h⟩
    | ok is =>
      rw [hr] at r2
      obtain ⟨a, b, -, d⟩ := r2
      simp only [Nat.zero_add] at a b d
      have his : (List.range is.length).map (indexWord ix) = is := by
        apply List.ext_getElem?
        intro j
        by_cases hj : j < is.length
        · rw [List.getElem?_map, List.getElem?_range hj, Option.map_some, d j hj, List.getD_eq_getElem?_getD, List.getElem?_eq_getElem hj]; rfl
        · rw [List.getElem?_eq_none (by simp; omega), List.getElem?_eq_none (by omega)]
      have hw := (Nostr.Hd.readWords_iff _ _ _).1 hr
      have hback : tokens 0x20 m = (List.range is.length).map fun i => words.getD (indexWord ix i) [] := by
        have := hw.2.2
        conv at this => rhs; rw [← his]
        rw [List.map_map] at this
        exact this
      simp only [a, Res.bind_ok, his]
      by_cases h12 : is.length = 12
      · obtain ⟨e, k1, k2⟩ := check_ok (eb := 16) (cs := 4) sz hs (is := is) (by omega)
        rw [if_pos h12, if_pos (Or.inl h12), k1, k2]
        simp only [Res.bind_ok, if_pos h12]
        exact ⟨trivial, ⟨r1, by simp, by simp⟩, ⟨.inr (.inl (by rw [f2])), .inr (.inl (by rw [f3])), trivial⟩, block, fun _ => ⟨_, hback⟩⟩
      · by_cases h24 : is.length = 24
        · obtain ⟨e, k1, k2⟩ := check_ok (eb := 32) (cs := 8) sz hs (is := is) (by omega)
          rw [if_neg h12, if_pos h24, if_pos (Or.inr h24), k1, k2]
          simp only [Res.bind_ok, if_neg h12]
          exact ⟨trivial, ⟨r1, by simp, by simp⟩, ⟨.inr (.inl (by rw [f2])), .inr (.inl (by rw [f3])), trivial⟩, block, fun _ => ⟨_, hback⟩⟩
        · rw [if_neg h12, if_neg h24, if_neg (by omega)]
          exact ⟨rfl, sz, Clean.refl _, block, fun h => by cases h⟩

/-- C162: validating a mnemonic. When the call returns, the copy of the text, the entropy and its hash are wiped or were never
written. The outcome is that of the value model. -/
theorem C162_validate_partial {C : Crypto} {f : WordFrame} {m : Bytes} (hf : WordFrame.Sized f) (hs : Sha C.sha256) :
    Clean [] [f.entropy, f.hash] [(validate C f m).1.2.entropy, (validate C f m).1.2.hash] ∧
    (∀ b ∈ (validate C f m).2, b = List.replicate b.length 0) ∧ (validate C f m).1.1 = Nostr.Hd.validate C m :=
  have h := validate_all (m := m) hf hs
  ⟨h.2.2.1, h.2.2.2.1, h.1⟩

/-- C162 fails: after every successful validation the numbers of all the words are left, from which the mnemonic can be read
back. -/
theorem C162_validate_refuted {C : Crypto} {f : WordFrame} {m : Bytes} (hf : WordFrame.Sized f) (hs : Sha C.sha256) (hv : Nostr.Hd.validate C m = .ok ()) :
    ∃ n, tokens 0x20 m = (List.range n).map fun i => words.getD (indexWord (validate C f m).1.2.indices i) [] :=
  (validate_all hf hs).2.2.2.2 hv

/-! ## Generation -/

def GenFrame.Sized (f : GenFrame) : Prop := f.entropy.length = 32 ∧ f.hash.length = 32 ∧ f.combined.length = 34

/-- What was written stays, when more is written behind it. -/
theorem take_over {off k : Nat} {d b : Bytes} (hk : k ≤ off) (hb : off ≤ b.length) : (over off d b).take k = b.take k := by
  rw [over, List.append_assoc, List.take_append_of_le_length (by simp; omega), List.take_take, Nat.min_eq_left hk]

theorem take_over_all {off : Nat} {d b : Bytes} (hb : off ≤ b.length) : (over off d b).take (off + d.length) = b.take off ++ d := by
  rw [over, List.take_append_of_le_length (by simp; omega), List.take_of_length_le (by simp; omega)]

/-- The loop over the words, in a buffer that begins with `text`. -/
theorem wordsOut_ok {c : Bytes} {size : Nat} : ∀ (is : List Nat) (out text : Bytes), out.length = size → text.length < size → out.take text.length = text →
    (wordsOut c size is text.length out).2.length = size ∧ (wordsOut c size is text.length out).2.take text.length = text ∧
    match Nostr.Hd.writeLoop c size is text with
    | .ok t => (wordsOut c size is text.length out).1 = .ok () ∧ (wordsOut c size is text.length out).2.take (t.length + 1) = t ++ [0]
    | .err x => (wordsOut c size is text.length out).1 = .err x
    | .ub => (wordsOut c size is text.length out).1 = .ub
  | [], out, text, ho, hl, ht => by
      simp only [wordsOut, Nostr.Hd.writeLoop]
      refine ⟨by rw [over_length (by simp; omega), ho], by rw [take_over (Nat.le_refl _) (by omega), ht], trivial, ?_⟩
      have := take_over_all (off := text.length) (d := [0]) (b := out) (by omega)
      rw [List.length_singleton] at this
      rw [this, ht]
  | i :: is, out, text, ho, hl, ht => by
      unfold wordsOut Nostr.Hd.writeLoop
      cases hw : words[Nostr.Hd.indexAt c i]? with
      | none => exact ⟨ho, ht, rfl⟩
      | some w =>
        simp only
        by_cases hs : text.length + w.length + (if i > 0 then 1 else 0) ≥ size
        · rw [if_pos hs, if_pos hs]; exact ⟨ho, ht, rfl⟩
        · rw [if_neg hs, if_neg hs]
          by_cases hi : i > 0
          · simp only [if_pos hi] at hs ⊢
            have l1 : (over text.length [0x20] out).length = size := by rw [over_length (by simp; omega), ho]
            have t1 : (over text.length [0x20] out).take (text.length + 1) = text ++ [0x20] := by
              have := take_over_all (off := text.length) (d := [0x20]) (b := out) (by omega)
              rw [List.length_singleton] at this
              rw [this, ht]
            have l2 : (over (text.length + 1) w (over text.length [0x20] out)).length = size := by rw [over_length (by omega), l1]
            have t2 : (over (text.length + 1) w (over text.length [0x20] out)).take (text.length + 1 + w.length) = text ++ [0x20] ++ w := by
              rw [take_over_all (by omega), t1]
            have el : (text ++ [0x20] ++ w).length = text.length + 1 + w.length := by simp; omega
            have ih := wordsOut_ok (c := c) is (over (text.length + 1) w (over text.length [0x20] out)) (text ++ [0x20] ++ w) l2 (by rw [el]; omega) (by rw [el, t2])
            rw [el] at ih
            refine ⟨ih.1, ?_, ih.2.2⟩
            have := congrArg (List.take text.length) ih.2.1
            rw [List.take_take, Nat.min_eq_left (by omega), List.append_assoc, List.take_left'] at this
            · exact this
            · rfl
          · simp only [if_neg hi] at hs ⊢
            have l2 : (over text.length w out).length = size := by rw [over_length (by omega), ho]
            have t2 : (over text.length w out).take (text.length + w.length) = text ++ w := by
              rw [take_over_all (by omega), ht]
            have el : (text ++ [] ++ w).length = text.length + w.length := by simp
            have ih := wordsOut_ok (c := c) is (over text.length w out) (text ++ [] ++ w) l2 (by rw [el]; omega) (by rw [el, t2, List.append_nil])
            rw [el] at ih
            refine ⟨ih.1, ?_, ih.2.2⟩
            have := congrArg (List.take text.length) ih.2.1
            rw [List.take_take, Nat.min_eq_left (by omega), List.append_nil, List.take_left'] at this
            · exact this
            · rfl

/-- The word count and the entropy belong together. -/
def Draws (wordCount : Int) (entropy : Option Bytes) : Prop := ∀ e ∈ entropy, e.length = 16 ∧ wordCount = 12 ∨ e.length = 32 ∧ wordCount = 24

theorem combined_eq {C : Crypto} {e b : Bytes} (hb : b.length = 34) (he : e.length ≤ 33) :
    over e.length [(C.sha256 e).getD 0 0] (over 0 e (over 0 (List.replicate 34 0) b)) =
      e ++ [(C.sha256 e).getD 0 0] ++ List.replicate (33 - e.length) 0 := by
  rw [over_all (d := List.replicate 34 0) (by simp [hb])]
  have h1 : over 0 e (List.replicate 34 0) = e ++ List.replicate (34 - e.length) 0 := by
    rw [over, List.take_zero, List.nil_append, Nat.zero_add, List.drop_replicate]
  rw [h1, over_append, List.drop_replicate, List.append_assoc, List.length_singleton, show 34 - e.length - 1 = 33 - e.length from by omega]

/-- C162: generating a mnemonic. When the call returns, the entropy and its copy with the checksum are wiped or were never
written. The outcome is that of the value model. -/
theorem C162_generate_partial {C : Crypto} {f : GenFrame} {entropy : Option Bytes} {wordCount : Int} {out : Bytes} (hf : GenFrame.Sized f)
    (hs : Sha C.sha256) (he : Draws wordCount entropy) :
    let r := generate C f entropy wordCount out;
    Clean [] [f.entropy, f.combined] [r.2.entropy, r.2.combined] ∧
    match Nostr.Hd.generate C entropy wordCount out.length with
    | .ok t => r.1.1 = .ok () ∧ r.1.2.take (t.length + 1) = t ++ [0]
    | .err x => r.1.1 = .err x
    | .ub => False := by
  obtain ⟨f1, f2, f3⟩ := hf
  unfold generate Nostr.Hd.generate
  by_cases h0 : out.length = 0
  · rw [if_pos h0, if_pos h0]; exact ⟨Clean.refl _, rfl⟩
  · rw [if_neg h0, if_neg h0]
    by_cases hw : wordCount ≠ 12 ∧ wordCount ≠ 24
    · rw [if_pos hw, if_pos hw]; exact ⟨Clean.refl _, rfl⟩
    · rw [if_neg hw, if_neg hw]
      cases entropy with
      | none =>
        simp only
        refine ⟨⟨.inl rfl, .inr (.inl ?_), trivial⟩, trivial⟩
        rw [over_all (by simp [f3]), f3]
      | some e =>
        have hl := he e (by simp)
        have e1 : over 0 (C.sha256 e) f.hash = C.sha256 e := over_all (by rw [hs, f2])
        simp only [e1, combined_eq (C := C) f3 (show e.length ≤ 33 by omega)]
        have w1 : wipe 32 (over 0 e f.entropy) = List.replicate f.entropy.length 0 := wipe_over (by omega) (by omega)
        have w2 : wipe 34 (e ++ [(C.sha256 e).getD 0 0] ++ List.replicate (33 - e.length) 0) = List.replicate 34 0 := by
          have : (e ++ [(C.sha256 e).getD 0 0] ++ List.replicate (33 - e.length) 0).length = 34 := by
            simp only [List.length_append, List.length_singleton, List.length_replicate]; omega
          rw [wipe_all this.symm, this]
        obtain ⟨-, -, k⟩ := wordsOut_ok (c := e ++ [(C.sha256 e).getD 0 0] ++ List.replicate (33 - e.length) 0) (size := out.length)
          (List.range wordCount.toNat) out [] rfl (by simpa using Nat.pos_of_ne_zero h0) rfl
        rw [List.length_nil] at k
        have noub : Nostr.Hd.writeLoop (e ++ [(C.sha256 e).getD 0 0] ++ List.replicate (33 - e.length) 0) out.length (List.range wordCount.toNat) [] ≠ .ub := by
          have := Nostr.Hd.Props.generate_eq C e wordCount.toNat out.length (by omega)
          simp only at this
          unfold Nostr.Hd.generate at this
          rw [if_neg h0, if_neg (by omega)] at this
          simp only [Int.toNat_natCast] at this
          rw [this]
          split <;> simp
        generalize wordsOut _ _ _ 0 out = r at k ⊢
        have clean : Clean [] [f.entropy, f.combined] [wipe 32 (over 0 e f.entropy), wipe 34 (e ++ [(C.sha256 e).getD 0 0] ++ List.replicate (33 - e.length) 0)] :=
          ⟨.inr (.inl w1), .inr (.inl (by rw [w2, f3])), trivial⟩
        cases hq : Nostr.Hd.writeLoop (e ++ [(C.sha256 e).getD 0 0] ++ List.replicate (33 - e.length) 0) out.length (List.range wordCount.toNat) [] with
        | ub => exact absurd hq noub
        | ok t => rw [hq] at k; simp only [k.1]; exact ⟨clean, trivial, k.2⟩
        | err x => rw [hq] at k; simp only [k]; exact ⟨clean, trivial⟩

/-- C162 fails for the hash of the entropy, which is always left. -/
theorem C162_generate_refuted {C : Crypto} {f : GenFrame} {e out : Bytes} {wordCount : Int} (hf : GenFrame.Sized f) (hs : Sha C.sha256)
    (he : Draws wordCount (some e)) (ho : out ≠ []) : (generate C f (some e) wordCount out).2.hash = C.sha256 e := by
  obtain ⟨f1, f2, f3⟩ := hf
  have hl := he e (by simp)
  have e1 : over 0 (C.sha256 e) f.hash = C.sha256 e := over_all (by rw [hs, f2])
  have h0 : out.length ≠ 0 := by simpa using ho
  unfold generate
  rw [if_neg h0, if_neg (by omega)]
  simp only [e1]
  split <;> rfl

/-! ## The seed -/

/-- The block of a normalised text can be wiped; a block that is wiped holds zeros. -/
def Zero (bs : List Bytes) : Prop := ∀ b ∈ bs, b = List.replicate b.length 0

theorem seedEnd_zero {C : Crypto} {norm : List Bytes} {m p seed : Bytes} : Zero (seedEnd C true norm m p seed).2 := by
  have h : Zero (wipe (8 + p.length + 1) (c!"mnemonic" ++ p ++ [0]) :: norm.map fun s => wipe s.length (s ++ [0])) := by
    intro b hb
    rcases List.mem_cons.1 hb with hb | hb
    · have : (c!"mnemonic" ++ p ++ [0]).length = 8 + p.length + 1 := by simp; omega
      rw [wipe_all this.symm] at hb
      rw [hb, List.length_replicate]
    · obtain ⟨s, _, rfl⟩ := List.mem_map.1 hb
      rw [wiped_text, List.length_replicate]
  unfold seedEnd
  rw [if_neg (by decide)]
  simp only
  cases C.pbkdf2 m (c!"mnemonic" ++ p) 2048 64 <;> exact h

theorem seedEnd_out {C : Crypto} {norm : List Bytes} {m p seed : Bytes} (hP : ∀ p s r n o, C.pbkdf2 p s r n = some o → o.length = n) (h64 : seed.length = 64) :
    (seedEnd C true norm m p seed).1.2.length = 64 ∧
    ((seedEnd C true norm m p seed).1.1 ≠ .ok () → (seedEnd C true norm m p seed).1.2 = seed) ∧
    Nostr.Hd.toSeed.run C m p = ((seedEnd C true norm m p seed).1.1 >>= fun _ => .ok (seedEnd C true norm m p seed).1.2) := by
  unfold seedEnd Nostr.Hd.toSeed.run
  rw [if_neg (by decide)]
  simp only
  cases hk : C.pbkdf2 m (c!"mnemonic" ++ p) 2048 64 with
  | none => exact ⟨h64, fun _ => rfl, rfl⟩
  | some s =>
    have := hP _ _ _ _ _ hk
    simp only [over_all (d := s) (b := seed) (by omega)]
    exact ⟨this, fun h => absurd rfl h, rfl⟩

/-- C162: turning a mnemonic into a seed, when memory is granted. When the call returns, the entropy, its hash and the copies of the
texts are wiped; the seed is written only when the call succeeds. The outcome is that of the value model. -/
theorem C162_seed_partial {C : Crypto} {f : WordFrame} {m seed : Bytes} {pass : Option Bytes} (hf : WordFrame.Sized f) (hs : Sha C.sha256)
    (hP : ∀ p s r n o, C.pbkdf2 p s r n = some o → o.length = n) (h64 : seed.length = 64)
    (hN : ∀ norm ∈ C.nfkd, ∀ p ∈ pass, norm p ≠ none) :
    let r := toSeed C f true m pass seed;
    Clean [] [f.entropy, f.hash] [r.1.2.entropy, r.1.2.hash] ∧ Zero r.2 ∧ r.1.1.2.length = 64 ∧ (r.1.1.1 ≠ .ok () → r.1.1.2 = seed) ∧
      Nostr.Hd.toSeed C m pass = (r.1.1.1 >>= fun _ => .ok r.1.1.2) := by
  obtain ⟨v1, v2, v3, v4, v5⟩ := validate_all (m := m) hf hs
  unfold toSeed Nostr.Hd.toSeed
  simp only [v1]
  have zapp : ∀ {a b : List Bytes}, Zero a → Zero b → Zero (a ++ b) := by
    intro a b ha hb x hx
    rcases List.mem_append.1 hx with h | h
    · exact ha x h
    · exact hb x h
  rcases Nostr.Hd.Props.C64_validate_total C m with hv | hv
  · rw [hv]
    simp only [Res.bind_ok]
    cases hn : C.nfkd with
    | none =>
      simp only
      by_cases ha : Nostr.Hd.isAscii m = false ∨ Nostr.Hd.isAscii (pass.getD []) = false
      · rw [if_pos ha, if_pos ha]; exact ⟨v3, v4, h64, fun _ => rfl, rfl⟩
      · rw [if_neg ha, if_neg ha]
        obtain ⟨s1, s2, s3⟩ := seedEnd_out (norm := []) (m := m) (p := pass.getD []) hP h64
        exact ⟨v3, zapp v4 seedEnd_zero, s1, s2, s3⟩
    | some norm =>
      simp only
      cases hm : norm m with
      | none => exact ⟨v3, v4, h64, fun _ => rfl, rfl⟩
      | some m' =>
        simp only
        cases pass with
        | none =>
          obtain ⟨s1, s2, s3⟩ := seedEnd_out (norm := [m']) (m := m') (p := []) hP h64
          exact ⟨v3, zapp v4 seedEnd_zero, s1, s2, s3⟩
        | some p =>
          simp only
          cases hp : norm p with
          | none => exact absurd hp (hN norm hn p (by simp))
          | some p' =>
            obtain ⟨s1, s2, s3⟩ := seedEnd_out (norm := [m', p']) (m := m') (p := p') hP h64
            exact ⟨v3, zapp v4 seedEnd_zero, s1, s2, s3⟩
  · rw [hv]; exact ⟨v3, v4, h64, fun _ => rfl, rfl⟩

/-- C162 fails when memory is refused: the normalised mnemonic and the normalised passphrase are released as they are. -/
theorem C162_seed_refuted {C : Crypto} {f : WordFrame} {m m' p p' seed : Bytes} {norm : Bytes → Option Bytes} (hf : WordFrame.Sized f) (hs : Sha C.sha256)
    (hv : Nostr.Hd.validate C m = .ok ()) (hn : C.nfkd = some norm) (hm : norm m = some m') (hp : norm p = some p') :
    m' ++ [0] ∈ (toSeed C f false m (some p) seed).2 ∧ p' ++ [0] ∈ (toSeed C f false m (some p) seed).2 := by
  have v1 := (validate_all (m := m) hf hs).1
  simp only [toSeed, v1, hv, hn, hm, hp, seedEnd, if_true]
  simp

/-! ## The key pair -/

/-- A way to derive master keys from seeds that leaves nothing, for this seed. -/
def SeedClean (C : Crypto) (n : Nat) (S : Frame → HdKey → Bytes → Out) (seed : Bytes) : Prop :=
  ∀ f master, Frame.Sized n f → KeySized master →
    Clean [(S f master seed).key.pub] f.dead (S f master seed).frame.dead ∧ Frame.Sized n (S f master seed).frame ∧ KeySized (S f master seed).key ∧
      Nostr.Hd.fromSeed C seed = ((S f master seed).res >>= fun _ => .ok (S f master seed).key)

def PairFrame.Sized (n : Nat) (f : PairFrame) : Prop :=
  f.seed.length = 64 ∧ KeySized f.master ∧ KeySized f.derived ∧ WordFrame.Sized f.word ∧ PathFrame.Sized n f.path

/-- The local buffers of the call and of all the calls it makes, but for the numbers of the words. -/
def all (f : PairFrame) : List Bytes :=
  [f.seed] ++ pieces f.master ++ pieces f.derived ++ [f.word.entropy, f.word.hash] ++ pieces f.path.next ++ others f.path

/-- The path of an account. -/
def accountPath (account : Nat) : Bytes := (c!"m/44'/1237'/" ++ Num.decNat account ++ c!"'/0/0").take 63

theorem pieces_clean {ps : List Bytes} {k k' : HdKey} (h : KeySized k) (h' : k' = k ∨ k' = zeroKey) : Clean ps (pieces k) (pieces k') := by
  rcases h' with e | e
  · rw [e]; exact Clean.refl _
  · rw [e]
    exact ⟨.inr (.inl (by rw [h.1]; rfl)), .inr (.inl (by rw [h.2.1]; rfl)), .inr (.inl (by rw [h.2.2]; rfl)), trivial⟩

/-- The call, with any backend. -/
theorem keypair_all {C : Crypto} {n : Nat} {S : Frame → HdKey → Bytes → Out} {D : Frame → HdKey → Nat → HdKey → Out} {f : PairFrame} {m : Bytes}
    {pass : Option Bytes} {account : Nat} {pair : Bytes × Bytes} (hs : Sha C.sha256) (hP : ∀ p s r n o, C.pbkdf2 p s r n = some o → o.length = n)
    (hN : ∀ norm ∈ C.nfkd, ∀ p ∈ pass, norm p ≠ none) (hf : PairFrame.Sized n f) (hS : ∀ seed, Nostr.Hd.toSeed C m pass = .ok seed → SeedClean C n S seed)
    (hD : PathClean n C D) :
    let r := toKeypair C S D f true m pass account pair;
    (r.1.1.1 = .ok () ∨ r.1.1.1 = .err .invalidParam → (∃ ps, (∀ p ∈ ps, ∃ seed master, Nostr.Hd.toSeed C m pass = .ok seed ∧
        Nostr.Hd.fromSeed C seed = .ok master ∧ OnTheWay C master (components (accountPath account)) p) ∧ Clean ps (all f) (all r.1.2)) ∧ Zero r.2) ∧
    Nostr.Hd.toKeypairOf C m pass account = (r.1.1.1 >>= fun _ => .ok r.1.1.2) := by
  obtain ⟨f1, f2, f3, f4, f5, f6, f7⟩ := hf
  obtain ⟨s1, s2, s3, s4, s5⟩ := C162_seed_partial (m := m) (pass := pass) f4 hs hP f1 hN
  unfold toKeypair Nostr.Hd.toKeypairOf
  simp only
  generalize toSeed C f.word true m pass f.seed = s at s1 s2 s3 s4 s5 ⊢
  cases hr : s.1.1.1 with
  | ub =>
    rw [hr] at s5
    rw [s5]
    refine ⟨?_, rfl⟩
    rintro (h | h) <;> cases h
  | err x =>
    rw [hr] at s5
    rw [s5]
    refine ⟨fun _ => ⟨⟨[], by simp, ?_⟩, s2⟩, rfl⟩
    have : s.1.1.2 = f.seed := s4 (by rw [hr]; simp)
    simp only [all, this]
    exact ((((Clean.refl _).append (Clean.refl _)).append s1).append (Clean.refl _)).append (Clean.refl _)
  | ok u =>
    rw [hr] at s5
    simp only [Res.bind_ok] at s5
    obtain ⟨c1, c2, c3, c4⟩ := hS _ s5 f.path.calls f.master f7 f2
    rw [s5]
    simp only [Res.bind_ok]
    generalize S f.path.calls f.master s.1.1.2 = o at c1 c2 c3 c4 ⊢
    rw [c4]
    have w := wipe_all (n := 64) (b := s.1.1.2) s3.symm
    rw [s3] at w
    cases ho : o.res with
    | ub =>
      refine ⟨?_, rfl⟩
      rintro (h | h) <;> cases h
    | err x =>
      refine ⟨?_, rfl⟩
      rintro (h | h)
      · cases h
      · change Res.err x = Res.err .invalidParam at h
        rw [ho, h] at c4
        simp only [Res.bind_err] at c4
        unfold Nostr.Hd.fromSeed at c4
        rw [if_neg (by omega)] at c4
        repeat' split at c4
        all_goals cases c4
    | ok u =>
      rw [ho] at c4
      simp only [Res.bind_ok] at c4 ⊢
      obtain ⟨⟨ps, p1, p1'⟩, p2, p3, p4, p6, p5⟩ := hD { f.path with calls := o.frame } f.derived o.key (accountPath account) ⟨f5, f6, c2⟩ c3
      have hp : List.take 63 (c!"m/44'/1237'/" ++ Num.decNat account ++ c!"'/0/0") = accountPath account := rfl
      simp only [hp, p5]
      generalize derivePath D { f.path with calls := o.frame } f.derived o.key (accountPath account) = d at p1 p1' p2 p3 p4 p6 ⊢
      have zz : Zero (s.2 ++ d.2) := by
        intro x hx
        rcases List.mem_append.1 hx with h | h
        · exact s2 x h
        · exact p4 x h
      have first : OnTheWay C o.key (components (accountPath account)) o.key.pub := .inr ⟨0, o.key, rfl, rfl⟩
      have pubs : ∀ p ∈ o.key.pub :: ps, ∃ seed master, Res.ok s.1.1.2 = .ok seed ∧ Nostr.Hd.fromSeed C seed = .ok master ∧
          OnTheWay C master (components (accountPath account)) p := by
        intro p hp
        refine ⟨_, o.key, rfl, c4, ?_⟩
        rcases List.mem_cons.1 hp with h | h
        · rw [h]; exact first
        · exact p1 p h
      have paths : Clean (o.key.pub :: ps) (others f.path) (others d.1.frame) := by
        refine Clean.trans (l := others { f.path with calls := o.frame }) ((Clean.refl _).append (c1.mono (by simp))) ?_
          (p1'.mono fun x h => List.mem_cons_of_mem _ h)
        simp only [others, List.map_append, sized_lengths f7 c2]
      have step : ∀ derived, (d.1.frame.next = f.path.next ∨ d.1.frame.next = zeroKey) → (derived = f.derived ∨ derived = zeroKey) →
          Clean (o.key.pub :: ps) (all f) (all ⟨wipe 64 s.1.1.2, blank o.key, derived, s.1.2, d.1.frame⟩) := by
        intro derived hn hd
        refine (((((?_ : Clean _ [f.seed] [wipe 64 s.1.1.2]).append (pieces_clean f2 (.inr (blank_eq c3)))).append (pieces_clean f3 hd)).append
          (s1.mono (by simp))).append (pieces_clean f6 hn)).append paths
        exact ⟨.inr (.inl (by rw [w, f1])), trivial⟩
      cases hd : d.1.res with
      | ub => refine ⟨?_, rfl⟩; rintro (h | h) <;> cases h
      | err x =>
        refine ⟨fun h => ⟨⟨_, pubs, ?_⟩, zz⟩, rfl⟩
        exact step d.1.key (p2 (by rw [hd]; exact h)) (.inl (p3 (by rw [hd]; simp)))
      | ok u =>
        refine ⟨fun h => ⟨⟨_, pubs, ?_⟩, zz⟩, rfl⟩
        refine step (blank d.1.key) (p2 (.inl (by rw [hd]))) (.inr (blank_eq (p6 (by rw [hd]))))

/-- C162: turning a mnemonic into a key pair, with both backends, when memory is granted. When the call succeeds, or fails because of a
parameter, the seed, the keys on the way, the copies of the texts and all the buffers of the calls made on the way are wiped, hold what they
held before, or hold public keys of keys on the way; only the numbers of the words are not covered. The outcome is that of the value
model. -/
theorem C162_keypair_partial {C : Crypto} {pairOf : Bytes → Option Bytes} {f g : PairFrame} {m : Bytes} {pass : Option Bytes} {account : Nat} {pair : Bytes × Bytes}
    (hC : Sizes C) (hs : Sha C.sha256) (hP : ∀ p s r n o, C.pbkdf2 p s r n = some o → o.length = n) (hk : ∀ k p, pairOf k = some p → p.length = 96)
    (hx : ∀ k, pairOf k = none → C.xonly k = none) (hN : ∀ norm ∈ C.nfkd, ∀ p ∈ pass, norm p ≠ none)
    (hM : ∀ seed h, Nostr.Hd.toSeed C m pass = .ok seed → C.hmac512 c!"Bitcoin seed" seed = some h → C.xonly (h.take 32) ≠ none)
    (hf : PairFrame.Sized 32 f) (hg : PairFrame.Sized 96 g) :
    (let r := toKeypair C (fromSeedNc C) (derive childNc C) f true m pass account pair;
      (r.1.1.1 = .ok () ∨ r.1.1.1 = .err .invalidParam → (∃ ps, (∀ p ∈ ps, ∃ seed master, Nostr.Hd.toSeed C m pass = .ok seed ∧
        Nostr.Hd.fromSeed C seed = .ok master ∧ OnTheWay C master (components (accountPath account)) p) ∧ Clean ps (all f) (all r.1.2)) ∧ Zero r.2) ∧
      Nostr.Hd.toKeypairOf C m pass account = (r.1.1.1 >>= fun _ => .ok r.1.1.2)) ∧
    let r := toKeypair C (fromSeedSecp C pairOf) (derive (childSecp pairOf) C) g true m pass account pair;
    (r.1.1.1 = .ok () ∨ r.1.1.1 = .err .invalidParam → (∃ ps, (∀ p ∈ ps, ∃ seed master, Nostr.Hd.toSeed C m pass = .ok seed ∧
        Nostr.Hd.fromSeed C seed = .ok master ∧ OnTheWay C master (components (accountPath account)) p) ∧ Clean ps (all g) (all r.1.2)) ∧ Zero r.2) ∧
      Nostr.Hd.toKeypairOf C m pass account = (r.1.1.1 >>= fun _ => .ok r.1.1.2) := by
  refine ⟨keypair_all hs hP hN hf (fun seed hseed f master hf hm => ?_) (path_clean hC (finishes_nc hC)),
    keypair_all hs hP hN hg (fun seed hseed f master hf hm => ?_) (path_clean hC (finishes_secp hC hk hx))⟩
  · have h := seed_nc_all (seed := seed) hC hf hm (fun h hh => hM seed h hseed hh)
    exact ⟨h.1, h.2.2.2.1, h.2.2.2.2, h.2.2.1⟩
  · have h := seed_secp_all (seed := seed) hC hf hm hk hx
    exact ⟨h.1.mono (by simp), h.2.2.2.1, h.2.2.2.2, h.2.2.1⟩

/-! ## Cases -/

/-- The toy library, with a hash that makes "abandon … about" (entropy 0) valid for every text. -/
def toy12 : Crypto := { Props.toy with sha256 := fun _ => List.replicate 32 0x37 }

/-- The mnemonic of sixteen zero bytes, with the checksum of `toy12`: eleven times the word 0, then the word 3. -/
def phrase : Bytes := join 0x20 (List.replicate 11 (words.getD 0 []) ++ [words.getD 3 []])

def wordFrame : WordFrame := ⟨List.replicate 96 0x55, List.replicate 33 0x55, List.replicate 32 0x55⟩

example : WordFrame.Sized wordFrame ∧ Sha toy12.sha256 := ⟨⟨by simp [wordFrame], by simp [wordFrame], by simp [wordFrame]⟩, fun _ => by simp [toy12]⟩

example : Nostr.Hd.validate toy12 phrase = .ok () ∧ (validate toy12 wordFrame phrase).1.2.indices = List.replicate 44 0 ++ [3] ++ List.replicate 51 0 := by
  decide +kernel

example : (generate toy12 ⟨List.replicate 32 0x55, List.replicate 32 0x55, List.replicate 34 0x55⟩ (some (List.replicate 16 0)) 12 (List.replicate 200 0x55)).1.2.take 94 =
    phrase ++ [0] := by decide +kernel

example : (toKeypair toy12 (fromSeedNc toy12) (derive childNc toy12) ⟨List.replicate 64 0x55, toyKey, toyKey, wordFrame, ⟨toyKey, toyKey, toyFrame⟩⟩ true phrase none 0
    ([], [])).1.1.1 = .ok () := by decide +kernel

end Nostr.Wipe.Hd.Words
