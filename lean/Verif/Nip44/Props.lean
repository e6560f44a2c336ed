import Verif.Nip44.Lemmas
import Verif.Nip44.Spec

/-! # Property theorems: C14, C15, C16, C83 -/

namespace Nostr.Nip44.Props
open Nostr Nostr.Nip44 Spec

/-! ## C14 -/

theorem log2_unique {len k : Nat} (h1 : 2 ^ k ≤ len) (h2 : len < 2 ^ (k + 1)) : len.log2 = k := by
  have hpos : len ≠ 0 := by have := Nat.pow_pos (n := k) (a := 2) (by omega); omega
  rw [Nat.log2_eq_iff hpos]
  exact ⟨h1, h2⟩

theorem roundUp_eq {n c : Nat} (hc : 0 < c) (hn : 0 < n) : roundUp n c = c * ((n - 1) / c + 1) := by
  unfold roundUp
  rw [show n + c - 1 = (n - 1) + c by omega, Nat.add_div_right _ hc, Nat.mul_comm]

theorem paddedLen_eq {len : Nat} (h : len ≤ 65535) : paddedLen len = libPadded len := by
  unfold libPadded
  split
  · rename_i h1
    unfold paddedLen
    rw [if_pos h1]
  · rename_i h1
    obtain ⟨k, k1, k2, k3, e⟩ := paddedLen_spec (len := len) (by omega) (by omega)
    rw [e, log2_unique k2 k3, roundUp_eq (by omega) (by omega)]
    have : max 32 (2 ^ k / 8) = 2 ^ (if k ≤ 8 then 5 else k - 3) := by
      have h3 : 2 ^ k / 8 = 2 ^ (k - 3) := by
        rw [show k = (k - 3) + 3 by omega, Nat.pow_add]
        simp
      rw [h3]
      split
      · have : 2 ^ (k - 3) ≤ 2 ^ 5 := Nat.pow_le_pow_right (by omega) (by omega)
        omega
      · have : 2 ^ 5 ≤ 2 ^ (k - 3) := Nat.pow_le_pow_right (by omega) (by omega)
        omega
    rw [this]

/-- C14, round trip: every plaintext of an allowed length can be padded, the result is its big-endian
length, the text, and zeros up to the padded length, and unpadding returns the plaintext. -/
theorem C14_roundtrip {cfg : Option Config.Config} (hc : CfgOK cfg) {m : Bytes} (h1 : minSize cfg ≤ m.length)
    (h2 : m.length ≤ maxSize cfg) :
    ∃ p, pad cfg m = .ok p ∧ p = framed m (List.replicate (libPadded m.length - m.length) 0) ∧
      p.length = 2 + libPadded m.length ∧ unpad cfg p = .ok m := by
  obtain ⟨g1, g2⟩ := maxSize_le hc
  refine ⟨_, pad_ok h1 h2 g1, ?_, ?_, unpad_pad (by omega) h2 g1⟩
  · rw [paddedLen_eq (by omega)]
    unfold framed
    rw [Nat.mod_eq_of_lt (show m.length / 256 < 256 by omega)]
  · have := (paddedLen_ge (len := m.length) (by omega)).1
    rw [← paddedLen_eq (by omega)]
    simp only [List.length_cons, List.length_append, List.length_replicate]
    omega

example : CfgOK (some Config.defaults) ∧ minSize (some Config.defaults) ≤ (c!"hello").length ∧
    (c!"hello").length ≤ maxSize (some Config.defaults) := by
  refine ⟨?_, by decide, by decide⟩
  intro c hc
  simp only [Option.mem_def, Option.some.injEq] at hc
  subst hc
  decide

/-- C14, length hiding: the padded length is a non-decreasing function of the plaintext length alone, at
least 32 bytes and never shorter than the text. -/
theorem C14_length_hiding {cfg : Option Config.Config} (hc : CfgOK cfg) {m1 m2 p1 p2 : Bytes}
    (h1 : pad cfg m1 = .ok p1) (h2 : pad cfg m2 = .ok p2) :
    (m1.length ≤ m2.length → p1.length ≤ p2.length) ∧ 34 ≤ p1.length ∧ m1.length + 2 ≤ p1.length := by
  have lim : ∀ {m p : Bytes}, pad cfg m = .ok p → minSize cfg ≤ m.length ∧ m.length ≤ maxSize cfg := by
    intro m p h
    unfold pad at h
    split at h
    · simp at h
    · omega
  obtain ⟨a1, a2⟩ := lim h1
  obtain ⟨b1, b2⟩ := lim h2
  obtain ⟨g1, g2⟩ := maxSize_le hc
  obtain ⟨q1, e1, -, l1, -⟩ := C14_roundtrip hc a1 a2
  obtain ⟨q2, e2, -, l2, -⟩ := C14_roundtrip hc b1 b2
  rw [h1, Res.ok.injEq] at e1
  rw [h2, Res.ok.injEq] at e2
  subst e1 e2
  rw [l1, l2, ← paddedLen_eq (by omega), ← paddedLen_eq (by omega)]
  have := paddedLen_ge (len := m1.length) (by omega)
  refine ⟨fun h => ?_, by omega, by omega⟩
  have := paddedLen_mono h (by omega)
  omega

example : ∃ p, pad none (c!"hi") = .ok p := ⟨_, pad_ok (by decide) (by decide) (by decide)⟩

/-- C14, unpadding: a buffer is accepted exactly if it is the big-endian length of a non-empty text within
the limit, the text, and any padding that gives the one allowed total length. -/
theorem C14_unpad_exact {cfg : Option Config.Config} (hc : CfgOK cfg) (p m : Bytes) :
    unpad cfg p = .ok m ↔ 1 ≤ m.length ∧ m.length ≤ maxSize cfg ∧
      ∃ z, p = framed m z ∧ p.length = 2 + libPadded m.length := by
  obtain ⟨g1, g2⟩ := maxSize_le hc
  constructor
  · intro h
    unfold unpad at h
    split at h
    · rename_i b0 b1 rest
      simp only at h
      split at h
      · simp at h
      rename_i hn
      split at h
      · simp at h
      rename_i hl
      split at h
      · simp at h
      rename_i hr
      simp only [Res.ok.injEq] at h
      have hb0 := b0.toNat_lt
      have hb1 := b1.toNat_lt
      have hm : m.length = b0.toNat * 256 + b1.toNat := by
        rw [← h, List.length_take]; omega
      refine ⟨by omega, by omega, rest.drop (b0.toNat * 256 + b1.toNat), ?_, ?_⟩
      · unfold framed
        rw [hm, show (b0.toNat * 256 + b1.toNat) / 256 = b0.toNat by omega,
          show (b0.toNat * 256 + b1.toNat) % 256 = b1.toNat by omega, UInt8.ofNat_toNat, UInt8.ofNat_toNat,
          ← h, List.take_append_drop]
      · rw [hm, ← paddedLen_eq (by omega)]
        omega
    · simp at h
  · rintro ⟨h1, h2, z, rfl, h4⟩
    unfold unpad framed
    have hb := len_bytes (n := m.length) (by omega)
    rw [Nat.mod_eq_of_lt (show m.length / 256 < 256 by omega)] at hb
    simp only [hb]
    rw [if_neg (by omega), if_neg, if_neg]
    · rw [List.take_left' rfl]
    · rw [List.length_append]; omega
    · unfold framed at h4
      rw [paddedLen_eq (by omega)]
      simpa using h4

/-! ## Toy instances for the examples -/

/-- Conversation key: sum of both numbers; no encryption; MAC constant. -/
def toyNc : Nc := ⟨fun _ _ => some [], fun _ _ => [], fun _ _ x => x, fun _ _ => List.replicate 32 9⟩
/-- The text with a leading `A`. -/
def toyB64 : B64 := ⟨fun x => 0x41 :: x, fun x => if x.head? = some 0x41 then some x.tail else none⟩

theorem toyNc_ok : NcOK toyNc [1] [2] [3] [4] := ⟨rfl, fun _ _ _ => rfl, fun _ _ _ => rfl, fun _ _ => rfl⟩
theorem toyB64_ok : B64OK toyB64 := ⟨fun x => by simp [toyB64], fun x => by simp [toyB64]⟩

/-! ## C15 -/

theorem encrypt_payload {N : Nc} {B : B64} {a pa b pb : Bytes} (hN : NcOK N a pa b pb)
    {cfg : Option Config.Config} (hc : CfgOK cfg) {nonce m t : Bytes} (hn : nonce.length = 32)
    (h : encrypt N B cfg (some nonce) a pb m = .ok t) :
    ∃ ck p, N.conv b pa = some ck ∧ pad cfg m = .ok p ∧ unpad cfg p = .ok m ∧ p.length = 2 + libPadded m.length ∧
      m.length ≤ maxSize cfg ∧
      t = B.enc (2 :: (nonce ++ N.crypt ck nonce p ++ N.mac (N.macKey ck nonce) (nonce ++ N.crypt ck nonce p))) := by
  unfold encrypt at h
  simp only at h
  rw [Res.bind_eq_ok] at h
  obtain ⟨p, hp, h⟩ := h
  have lim : minSize cfg ≤ m.length ∧ m.length ≤ maxSize cfg := by
    have hp' := hp
    unfold pad at hp'
    split at hp'
    · simp at hp'
    · omega
  obtain ⟨q, e1, -, l1, u1⟩ := C14_roundtrip hc lim.1 lim.2
  rw [hp, Res.ok.injEq] at e1
  subst e1
  rw [hN.agree] at h
  split at h
  · simp at h
  · rename_i ck hck
    simp only [Res.ok.injEq] at h
    exact ⟨ck, p, hck, hp, u1, l1, lim.2, h.symm⟩

/-- The payload is taken apart again. -/
theorem decryptPayload_layout {N : Nc} {cfg : Option Config.Config} {b pa ck nonce c mac : Bytes}
    (hck : N.conv b pa = some ck) (hn : nonce.length = 32) (hm : mac.length = 32) (hl : 32 ≤ c.length)
    (hlim : c.length ≤ 65535) :
    decryptPayload N cfg b pa (2 :: (nonce ++ c ++ mac)) =
      if mac ≠ N.mac (N.macKey ck nonce) (nonce ++ c) then .err .invalidSignature
      else unpad cfg (N.crypt ck nonce c) := by
  have hlen : (2 :: (nonce ++ c ++ mac) : Bytes).length = 65 + c.length := by
    simp [hn, hm]; omega
  unfold decryptPayload
  rw [hlen, if_neg (by omega), if_neg (by simp)]
  have e1 : ((2 :: (nonce ++ c ++ mac) : Bytes).drop 1).take 32 = nonce := by
    rw [List.drop_one, List.tail_cons, List.append_assoc, List.take_left' hn]
  have e2 : ((2 :: (nonce ++ c ++ mac) : Bytes).drop 33).take (65 + c.length - 65) = c := by
    rw [show (33 : Nat) = 32 + 1 from rfl, List.drop_succ_cons, List.append_assoc, List.drop_left' hn,
      List.take_left' (by omega)]
  have e3 : (2 :: (nonce ++ c ++ mac) : Bytes).drop (65 + c.length - 32) = mac := by
    rw [show 65 + c.length - 32 = (32 + c.length) + 1 by omega, List.drop_succ_cons,
      List.drop_left' (by rw [List.length_append, hn])]
  simp only [e1, e2, e3, hck]

/-- C15 (part): every plaintext of at most 61440 bytes that the library encrypts is decrypted to itself by
the peer, for all keys, nonces and configurations. -/
theorem C15_roundtrip_partial {N : Nc} {B : B64} {a pa b pb : Bytes} (hN : NcOK N a pa b pb) (hB : B64OK B)
    {cfg : Option Config.Config} (hc : CfgOK cfg) {nonce m t : Bytes} (hn : nonce.length = 32)
    (hm : m.length ≤ 61440) (h : encrypt N B cfg (some nonce) a pb m = .ok t) :
    decrypt N B cfg b pa t = .ok m := by
  obtain ⟨ck, p, hck, hp, hu, hl, hmax, rfl⟩ := encrypt_payload hN hc hn h
  obtain ⟨g1, g2⟩ := maxSize_le hc
  have hlim := (paddedLen_limit (a := m.length) (by omega)).2 hm
  rw [paddedLen_eq (by omega)] at hlim
  have hge := (paddedLen_ge (len := m.length) (by omega)).2
  rw [paddedLen_eq (by omega)] at hge
  unfold decrypt
  rw [if_neg (hB.plain _), hB.inv]
  simp only
  rw [decryptPayload_layout hck hn (hN.mac _ _) (by rw [hN.len, hl]; omega) (by rw [hN.len, hl]; omega),
    if_neg (by simp), hN.stream, hu]

example : encrypt toyNc toyB64 none (some (List.replicate 32 1)) [1] [4] (c!"hello") ≠ .err .memory ∧
    (encrypt toyNc toyB64 none (some (List.replicate 32 1)) [1] [4] (c!"hello")).isOk := by
  constructor <;> decide +kernel

/-- Messages of more than 61440 bytes are not decrypted. -/
theorem long_rejected {N : Nc} {B : B64} {a pa b pb : Bytes} (hN : NcOK N a pa b pb) (hB : B64OK B) {cfg : Option Config.Config} (hc : CfgOK cfg)
    {nonce m t : Bytes} (hn : nonce.length = 32) (h1 : 61440 < m.length) (ht : encrypt N B cfg (some nonce) a pb m = .ok t) :
    decrypt N B cfg b pa t = .err .invalidParam := by
  obtain ⟨ck', p, hck, hp, hu, hl, hmax, rfl⟩ := encrypt_payload hN hc hn ht
  obtain ⟨g1, g2⟩ := maxSize_le hc
  have hge : paddedLen m.length > 65533 := by
    rcases Nat.lt_or_ge 65533 (paddedLen m.length) with h | h
    · exact h
    · have := (paddedLen_limit (a := m.length) (by omega)).1 h
      omega
  rw [paddedLen_eq (by omega)] at hge
  unfold decrypt
  rw [if_neg (hB.plain _), hB.inv]
  simp only
  unfold decryptPayload
  rw [if_pos]
  right
  simp only [List.length_cons, List.length_append, hn, hN.mac, hN.len, hl]
  omega

/-- C15 fails: every plaintext of 61441 to 65535 bytes is encrypted successfully and the resulting message
is rejected by the library's own decryption, whatever the keys and the nonce. -/
theorem C15_long_refuted {N : Nc} {B : B64} {a pa b pb : Bytes} (hN : NcOK N a pa b pb) (hB : B64OK B)
    {nonce m ck : Bytes} (hn : nonce.length = 32) (h1 : 61440 < m.length) (h2 : m.length ≤ 65535)
    (hk : N.conv a pb = some ck) :
    ∃ t, encrypt N B none (some nonce) a pb m = .ok t ∧ decrypt N B none b pa t = .err .invalidParam := by
  have hc : CfgOK none := by intro c hc; simp at hc
  have hp := pad_ok (cfg := none) (m := m) (by simp [minSize]; omega) (by simpa [maxSize] using h2) (by simp [maxSize])
  have henc : ∃ t, encrypt N B none (some nonce) a pb m = .ok t := by
    unfold encrypt
    simp only [hp, Res.bind_ok, hk]
    exact ⟨_, rfl⟩
  obtain ⟨t, ht⟩ := henc
  exact ⟨t, ht, long_rejected hN hB hc hn h1 ht⟩

example : ∃ m : Bytes, 61440 < m.length ∧ m.length ≤ 65535 ∧ toyNc.conv [1] [4] = some [] :=
  ⟨List.replicate 65000 0x61, by rw [List.length_replicate]; omega, by rw [List.length_replicate]; omega, rfl⟩

/-! ## C16 -/

/-- C16: decryption yields a plaintext only for a payload that is the version byte 2, a 32-byte nonce, a
ciphertext and the MAC of nonce and ciphertext under the conversation's MAC key; the plaintext is then the
unpadded decryption. -/
theorem C16_authenticated {N : Nc} {B : B64} {cfg : Option Config.Config} {sk pk text m : Bytes}
    (h : decrypt N B cfg sk pk text = .ok m) :
    ∃ ck nonce c, N.conv sk pk = some ck ∧ nonce.length = 32 ∧
      B.dec text = some (2 :: (nonce ++ c ++ N.mac (N.macKey ck nonce) (nonce ++ c))) ∧
      unpad cfg (N.crypt ck nonce c) = .ok m := by
  unfold decrypt at h
  split at h
  · simp at h
  split at h
  · simp at h
  rename_i p hp
  unfold decryptPayload at h
  split at h
  · simp at h
  rename_i hlen
  split at h
  · simp at h
  rename_i hv
  simp only at h
  split at h
  · simp at h
  rename_i ck hck
  split at h
  · simp at h
  rename_i hmac
  refine ⟨ck, (p.drop 1).take 32, (p.drop 33).take (p.length - 65), hck, ?_, ?_, h⟩
  · rw [List.length_take, List.length_drop]; omega
  · rw [hp]
    congr 1
    simp only [ne_eq, Decidable.not_not] at hmac
    rw [← hmac]
    cases p with
    | nil => simp at hlen
    | cons v q =>
      simp only [List.head?_cons, ne_eq, Option.some.injEq, Decidable.not_not] at hv
      subst hv
      congr 1
      simp only [List.drop_succ_cons, List.drop_zero, List.length_cons, show (33 : Nat) = 32 + 1 from rfl] at hlen ⊢
      have e1 : q.drop (q.length + 1 - 32 - 1) = (q.drop 32).drop (q.length + 1 - 65) := by
        rw [List.drop_drop]; congr 1; omega
      rw [show q.length + 1 - 32 = (q.length + 1 - 32 - 1) + 1 by omega, List.drop_succ_cons, e1, List.append_assoc,
        List.take_append_drop, List.take_append_drop]

example : decrypt toyNc toyB64 none [1] [4] (0x41 :: (2 :: (List.replicate 32 1 ++
    (0 :: 2 :: (c!"hi" ++ List.replicate 30 0)) ++ List.replicate 32 9))) = .ok (c!"hi") := by decide +kernel

/-- C16, other versions: any payload whose first byte is not 2 is rejected. -/
theorem C16_version {N : Nc} {B : B64} {cfg : Option Config.Config} {sk pk text : Bytes} {v : UInt8} {q : Bytes}
    (hd : B.dec text = some (v :: q)) (hv : v ≠ 2) (m : Bytes) : decrypt N B cfg sk pk text ≠ .ok m := by
  intro h
  obtain ⟨ck, nonce, c, -, -, h2, -⟩ := C16_authenticated h
  rw [hd, Option.some.injEq, List.cons.injEq] at h2
  exact hv h2.1

/-! ## C83 -/

/-- C83 fails: for 257 bytes NIP-44 pads to 320, the library to 288. -/
theorem C83_padding_refuted : ∃ m p : Bytes, m.length = 257 ∧ pad none m = .ok p ∧
    p.length ≠ 2 + nipPadded m.length := by
  refine ⟨List.replicate 257 0x61, _, List.length_replicate, pad_ok ?_ ?_ (by decide), ?_⟩
  · rw [List.length_replicate]; decide
  · rw [List.length_replicate]; decide
  · rw [List.length_replicate]
    simp only [List.length_cons, List.length_append, List.length_replicate]
    decide +kernel

/-- C83 fails, consequence: a 257-byte message padded and sent by a conforming peer is rejected. -/
theorem C83_interop_refuted {N : Nc} {a pa b pb : Bytes} (hN : NcOK N a pa b pb) {ck nonce m : Bytes}
    (hk : N.conv b pa = some ck) (hn : nonce.length = 32) (hm : m.length = 257) :
    let ct := N.crypt ck nonce (framed m (List.replicate (nipPadded 257 - 257) 0))
    decryptPayload N none b pa (2 :: (nonce ++ ct ++ N.mac (N.macKey ck nonce) (nonce ++ ct))) =
      .err .invalidParam := by
  intro ct
  have h320 : nipPadded 257 = 320 := by decide +kernel
  have hl : (framed m (List.replicate (nipPadded 257 - 257) 0)).length = 322 := by
    simp [framed, h320, hm]
  rw [decryptPayload_layout hk hn (hN.mac _ _) (by rw [hN.len, hl]; omega) (by rw [hN.len, hl]; omega),
    if_neg (by simp), hN.stream]
  unfold unpad framed
  simp only [hm]
  have hpl : paddedLen 257 = 288 := by decide +kernel
  rw [show (UInt8.ofNat (257 / 256)).toNat * 256 + (UInt8.ofNat (257 % 256)).toNat = 257 by decide,
    if_neg (by decide), if_pos]
  simp [hpl, hm, h320]

example : ∃ ck, toyNc.conv [3] [2] = some ck := ⟨_, rfl⟩

/-- C83 (part): up to 256 bytes the padded length is the one of NIP-44; beyond, it is never larger. -/
theorem C83_padding_partial {len : Nat} (h : len ≤ 65535) :
    (len ≤ 256 → paddedLen len = nipPadded len) ∧ paddedLen len ≤ nipPadded len := by
  have key : paddedLen len ≤ nipPadded len := by
    unfold nipPadded
    split
    · rename_i h1; unfold paddedLen; rw [if_pos h1]; exact Nat.le_refl _
    · rename_i h1
      obtain ⟨k, k1, k2, k3, e⟩ := paddedLen_spec (len := len) (by omega) (by omega)
      rw [e]
      obtain ⟨j, j1, j2⟩ : ∃ j, (len - 1).log2 = j ∧ (2 ^ j ≤ len - 1 ∧ len - 1 < 2 ^ (j + 1)) :=
        ⟨_, rfl, (Nat.log2_eq_iff (by omega)).1 rfl⟩
      simp only [j1]
      have hkj : k ≤ j + 1 := by
        rcases Nat.lt_or_ge (j + 1) k with h | h
        · have h2 : 2 ^ (j + 2) ≤ 2 ^ k := Nat.pow_le_pow_right (by omega) h
          have h3 : 2 ^ (j + 2) = 2 ^ (j + 1) * 2 := Nat.pow_succ ..
          have := Nat.pow_pos (n := j + 1) (a := 2) (by omega)
          omega
        · exact h
      have hj : (if 2 ^ (j + 1) ≤ 256 then 32 else 2 ^ (j + 1) / 8) = 2 ^ (if j + 1 ≤ 8 then 5 else j - 2) := by
        by_cases h8 : j + 1 ≤ 8
        · rw [if_pos h8, if_pos]
          exact Nat.pow_le_pow_right (by omega) h8
        · rw [if_neg h8, if_neg]
          · rw [show j + 1 = (j - 2) + 3 by omega, Nat.pow_add]
            simp
          · have : 2 ^ 9 ≤ 2 ^ (j + 1) := Nat.pow_le_pow_right (by omega) (by omega)
            omega
      rw [hj]
      apply (mul_ceil (Nat.pow_pos (by omega)) (by omega)).2
      · apply Nat.dvd_trans (Nat.pow_dvd_pow 2 (n := if j + 1 ≤ 8 then 5 else j - 2) ?_) (Nat.dvd_mul_right _ _)
        split <;> split <;> omega
      · exact (mul_ceil (Nat.pow_pos (by omega)) (by omega)).1
  refine ⟨?_, key⟩
  intro h256
  have table : ∀ n < 257, paddedLen n = nipPadded n := by decide +kernel
  exact table len (by omega)

end Nostr.Nip44.Props
