import Verif.Nip44.Spec

/-!
# Base64 (RFC 4648)

The library calls OpenSSL or mbedTLS for base64.  This is the standard, as the instance for which the
assumptions made about base64 elsewhere hold.
-/

namespace Nostr.Base64
open Nostr

/-- The alphabet. -/
def alphabet : Bytes := c!"ABCDEFGHIJKLMNOPQRSTUVWXYZabcdefghijklmnopqrstuvwxyz0123456789+/"

/-- The character of a 6-bit value. -/
def chr (n : Nat) : UInt8 := alphabet.getD n 0

/-- The value of a character. -/
def val (c : UInt8) : Option Nat := if c ∈ alphabet then some (alphabet.idxOf c) else none

/-- Three bytes become four characters; the last group is filled with `=`. -/
def enc : Bytes → Bytes
  | [] => []
  | [a] => [chr (a.toNat / 4), chr (a.toNat % 4 * 16), 0x3d, 0x3d]
  | [a, b] => [chr (a.toNat / 4), chr (a.toNat % 4 * 16 + b.toNat / 16), chr (b.toNat % 16 * 4), 0x3d]
  | a :: b :: c :: s =>
      chr (a.toNat / 4) :: chr (a.toNat % 4 * 16 + b.toNat / 16) :: chr (b.toNat % 16 * 4 + c.toNat / 64) ::
        chr (c.toNat % 64) :: enc s

/-- Decoding: groups of four characters. -/
def dec : Bytes → Option Bytes
  | [] => some []
  | w :: x :: y :: z :: s =>
      if z = 0x3d ∧ s = [] then
        if y = 0x3d then
          (val w).bind fun i => (val x).bind fun j => some [UInt8.ofNat (i * 4 + j / 16)]
        else
          (val w).bind fun i => (val x).bind fun j => (val y).bind fun k =>
            some [UInt8.ofNat (i * 4 + j / 16), UInt8.ofNat (j % 16 * 16 + k / 4)]
      else
        (val w).bind fun i => (val x).bind fun j => (val y).bind fun k => (val z).bind fun l =>
          (dec s).bind fun r =>
            some (UInt8.ofNat (i * 4 + j / 16) :: UInt8.ofNat (j % 16 * 16 + k / 4) :: UInt8.ofNat (k % 4 * 64 + l) :: r)
  | _ => none

theorem chr_table : ∀ n < 64, val (chr n) = some n ∧ chr n ∈ alphabet := by decide +kernel

theorem not_pad : (0x3d : UInt8) ∉ alphabet := by decide +kernel

theorem chr_ne {n : Nat} (h : n < 64) : chr n ≠ 0x3d := fun e => not_pad (e ▸ (chr_table n h).2)

theorem byte_lt (a : UInt8) : a.toNat < 256 := a.toNat_lt

theorem byte_eq {a : UInt8} {n : Nat} (h : n = a.toNat) : UInt8.ofNat n = a := by
  rw [h, UInt8.ofNat_toNat]

theorem dec_enc : ∀ x : Bytes, dec (enc x) = some x
  | [] => rfl
  | [a] => by
      have := byte_lt a
      simp only [enc, dec, and_self, if_true]
      rw [(chr_table _ (by omega)).1, (chr_table _ (by omega)).1]
      simp only [Option.bind_some, Option.some.injEq, List.cons.injEq, and_true]
      exact byte_eq (by omega)
  | [a, b] => by
      have := byte_lt a
      have := byte_lt b
      simp only [enc, dec, and_self, if_true, if_neg (chr_ne (n := b.toNat % 16 * 4) (by omega))]
      rw [(chr_table _ (by omega)).1, (chr_table _ (by omega)).1, (chr_table _ (by omega)).1]
      simp only [Option.bind_some, Option.some.injEq, List.cons.injEq, and_true]
      exact ⟨byte_eq (by omega), byte_eq (by omega)⟩
  | a :: b :: c :: s => by
      have := byte_lt a
      have := byte_lt b
      have := byte_lt c
      have hz : ¬ (chr (c.toNat % 64) = 0x3d ∧ enc s = []) := fun h => chr_ne (n := c.toNat % 64) (by omega) h.1
      simp only [enc, dec, if_neg hz]
      rw [(chr_table _ (by omega)).1, (chr_table _ (by omega)).1, (chr_table _ (by omega)).1, (chr_table _ (by omega)).1,
        dec_enc s]
      simp only [Option.bind_some, Option.some.injEq, List.cons.injEq, and_true]
      exact ⟨byte_eq (by omega), byte_eq (by omega), byte_eq (by omega)⟩

theorem enc_length : ∀ x : Bytes, (enc x).length = (x.length + 2) / 3 * 4
  | [] => rfl
  | [_] => by simp [enc]
  | [_, _] => by simp [enc]
  | a :: b :: c :: s => by
      simp only [enc, List.length_cons, enc_length s]
      omega

theorem enc_chars : ∀ (x : Bytes) (c : UInt8), c ∈ enc x → c ∈ alphabet ∨ c = 0x3d
  | [], c, h => by simp [enc] at h
  | [a], c, h => by
      have := byte_lt a
      simp only [enc, List.mem_cons, List.not_mem_nil, or_false] at h
      rcases h with rfl | rfl | h | h
      · exact .inl (chr_table _ (by omega)).2
      · exact .inl (chr_table _ (by omega)).2
      · exact .inr h
      · exact .inr h
  | [a, b], c, h => by
      have := byte_lt a
      have := byte_lt b
      simp only [enc, List.mem_cons, List.not_mem_nil, or_false] at h
      rcases h with rfl | rfl | rfl | h
      · exact .inl (chr_table _ (by omega)).2
      · exact .inl (chr_table _ (by omega)).2
      · exact .inl (chr_table _ (by omega)).2
      · exact .inr h
  | a :: b :: d :: s, c, h => by
      have := byte_lt a
      have := byte_lt b
      have := byte_lt d
      simp only [enc, List.mem_cons] at h
      rcases h with rfl | rfl | rfl | rfl | h
      · exact .inl (chr_table _ (by omega)).2
      · exact .inl (chr_table _ (by omega)).2
      · exact .inl (chr_table _ (by omega)).2
      · exact .inl (chr_table _ (by omega)).2
      · exact enc_chars s c h

/-- The standard codec. -/
def codec : Nip44.B64 := ⟨enc, dec⟩

theorem codec_ok : Nip44.Spec.B64OK codec := by
  refine ⟨dec_enc, ?_⟩
  intro x h
  have hm : (0x23 : UInt8) ∈ enc x := List.mem_of_mem_head? h
  rcases enc_chars x _ hm with h | h
  · exact absurd h (by decide +kernel)
  · exact absurd h (by decide)

end Nostr.Base64
