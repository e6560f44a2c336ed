import Verif.Hex.Lemmas

/-! # Property theorems: hex codecs and constant-time comparison (C09, C10, C73) -/

namespace Nostr.Hex.Props
open Nostr Nostr.Hex Nostr.Hex.Spec

/-- C09: encoding writes exactly the two lower-case hex digits of every byte, in order. -/
theorem C09_encode_lower (bs : Bytes) : hexEncode bs = hexText bs := hexEncode_eq bs

example : hexEncode [0x00, 0xab, 0x7f] = c!"00ab7f" := by decide +kernel

/-- C09, accept set of `nostr_hex_decode`: a text decodes to `bs` iff, up to the case of its letters,
it is the hex text of `bs` and `bs` fits the output buffer; nothing else is accepted. -/
theorem C09_decode_exact (s bs : Bytes) (outLen : Nat) :
    hexDecode s outLen = some bs ↔ bs.length ≤ outLen ∧ lowerHex s = hexText bs :=
  hexDecode_iff s bs outLen

/-- C09, the accept set said in terms of characters: decoding succeeds iff the text has even length,
consists of hex digits only and half its length fits the buffer. -/
theorem C09_decode_accepts (s : Bytes) (outLen : Nat) :
    (∃ bs, hexDecode s outLen = some bs) ↔
      s.length % 2 = 0 ∧ s.length / 2 ≤ outLen ∧ ∀ c ∈ s, IsHexDigit c :=
  hexDecode_some_iff s outLen

/-- C09, round trip through both encoders and both decoders, for every byte string. -/
theorem C09_round_trip (bs : Bytes) (outLen : Nat) (h : bs.length ≤ outLen) :
    hexDecode (hexEncode bs) outLen = some bs ∧
      relayHexToBytes (hexEncode bs) (hexEncode bs).length outLen = .ok bs := by
  have h1 : hexDecode (hexEncode bs) outLen = some bs := by
    rw [hexEncode_eq]; exact (hexDecode_iff _ _ _).2 ⟨h, lowerHex_hexText bs⟩
  refine ⟨h1, ?_⟩
  rw [relay_eq _ _ _ (Nat.le_refl _), List.take_length]
  unfold hexDecode at h1
  split at h1
  · simp at h1
  · rename_i hc
    rw [if_neg (by omega), if_neg (by omega), h1]

example : hexDecode (c!"00aB7F") 3 = some [0x00, 0xab, 0x7f] ∧ hexDecode (c!"00aB7F") 2 = none ∧
    hexDecode (c!"00aB7") 3 = none ∧ hexDecode (c!"0g") 3 = none := by decide +kernel

/-- C09 for the relay-side decoder `nostr_hex_to_bytes`: when the caller's length does not exceed the
text, it accepts exactly the same texts with the same result, and never reads outside the text. -/
theorem C09_relay_decode_exact (s bs : Bytes) (hexLen outSize : Nat) (hl : hexLen ≤ s.length) :
    (relayHexToBytes s hexLen outSize = .ok bs ↔
      hexLen % 2 = 0 ∧ bs.length ≤ outSize ∧ lowerHex (s.take hexLen) = hexText bs) ∧
    relayHexToBytes s hexLen outSize ≠ .ub := by
  rw [relay_eq s hexLen outSize hl]
  constructor
  · have hd := hexDecode_iff (s.take hexLen) bs outSize
    unfold hexDecode at hd
    rw [List.length_take, Nat.min_eq_left hl] at hd
    by_cases h1 : hexLen % 2 = 0
    · by_cases h2 : hexLen / 2 > outSize
      · rw [if_neg (by omega), if_pos h2]
        rw [if_pos (by omega)] at hd
        simp only [reduceCtorEq, false_iff, h1, true_and] at hd ⊢
        exact hd
      · rw [if_neg (by omega), if_neg h2]
        rw [if_neg (by omega)] at hd
        rw [← hd]
        cases pairs (s.take hexLen) <;> simp [h1]
    · rw [if_pos h1]; simp [h1]
  · split
    · simp
    · split
      · simp
      · split <;> simp

example : relayHexToBytes (c!"DEad") 4 2 = .ok [0xde, 0xad] ∧
    relayHexToBytes (c!"DEad") 4 1 = .err (.relay .bufferTooSmall) ∧
    relayHexToBytes (c!"DExd") 4 2 = .err (.relay .invalidId) := by decide +kernel

/-- C10: the comparison returns 0 iff the two regions are equal, for every length and content. -/
theorem C10_exact (a b : Bytes) (h : a.length = b.length) : ctMemcmp a b = 0 ↔ a = b :=
  ctMemcmp_iff h

example : ctMemcmp [1, 2, 3] [1, 2, 3] = 0 ∧ ctMemcmp [1, 2, 3] [2, 1, 3] ≠ 0 := by decide +kernel

/-- C73, first half: writing a key as hex and reading it back gives the key, whatever the C library
does with `0x`. -/
theorem C73_round_trip (lax0x : Bool) (key text : Bytes) (size : Nat) (hk : key.length = 32)
    (h : keyToHex key size = .ok text) :
    text = hexText key ∧ text.length = 64 ∧ text.length + 1 ≤ size ∧ keyFromHex lax0x text = .ok key := by
  unfold keyToHex at h
  split at h
  · simp at h
  · simp only [Res.ok.injEq] at h
    subst h
    rw [hexEncode_eq]
    have hl : (hexText key).length = 64 := by rw [hexText_length]; omega
    refine ⟨rfl, hl, by omega, ?_⟩
    unfold keyFromHex
    rw [if_neg (by omega)]
    exact keyLoop_digits lax0x 32 _ _ (by omega) ((pairs_iff _ _ (by omega)).2 (lowerHex_hexText key))

example : keyToHex (List.replicate 32 0x9a) 65 = .ok (hexText (List.replicate 32 0x9a)) := by
  decide +kernel

/-- C73, the part of the second half that holds: every text of 64 hex digits is accepted, with the
key it spells, and every text of another length is refused.
Full claim: acceptance implies that the text consists of 64 hex digits.
Missing: that direction is false, see `C73_strict_refuted`. -/
theorem C73_accepts_partial (lax0x : Bool) (s : Bytes) :
    (s.length = 64 → (∀ c ∈ s, IsHexDigit c) →
      ∃ key, keyFromHex lax0x s = .ok key ∧ key.length = 32 ∧ lowerHex s = hexText key) ∧
    (s.length ≠ 64 → keyFromHex lax0x s = .err .invalidKey) := by
  constructor
  · intro hl hd
    obtain ⟨bs, hbs⟩ := (hexDecode_some_iff s 32).2 ⟨by omega, by omega, hd⟩
    have h2 := (hexDecode_iff s bs 32).1 hbs
    have hlen := congrArg List.length h2.2
    rw [lowerHex_length, hexText_length] at hlen
    refine ⟨bs, ?_, by omega, h2.2⟩
    unfold keyFromHex
    rw [if_neg (by omega)]
    exact keyLoop_digits lax0x 32 _ _ (by omega) ((pairs_iff _ _ (by omega)).2 h2.2)
  · intro h
    unfold keyFromHex
    rw [if_pos h]

/-- C73, second half refuted: a text of 32 times "space, f" is accepted as a key although it contains
characters that are no hex digits, and so is one full of minus signs; two further readings of one key
exist, so text comparison and key comparison disagree. -/
theorem C73_strict_refuted : ∀ lax0x : Bool,
    (∃ s, s.length = 64 ∧ ¬ (∀ c ∈ s, IsHexDigit c) ∧ ∃ k, keyFromHex lax0x s = .ok k) ∧
    keyFromHex lax0x ((List.replicate 32 (c!"-1")).flatten) = .ok (List.replicate 32 0xff) := by
  intro lax0x
  refine ⟨⟨(List.replicate 32 (c!" f")).flatten, by decide +kernel, ?_, List.replicate 32 0x0f, ?_⟩, ?_⟩
  · intro h
    have := h 0x20 (by decide +kernel)
    revert this
    unfold IsHexDigit
    decide
  · cases lax0x <;> decide +kernel
  · cases lax0x <;> decide +kernel

end Nostr.Hex.Props
