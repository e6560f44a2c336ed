import Verif.Bech32.Bip173
import Verif.Bech32.Props
import Verif.Nip21.Props

/-! # Property theorems: C106, the texts are BIP-173 bech32 texts -/

namespace Nostr.Nip21.Props
open Nostr Nostr.Bech32 Nostr.Nip21

theorem mix_toNat (top : BitVec 32) (gs : List (BitVec 32)) : ∀ (j : Nat) (c : BitVec 32),
    (mixTop top j gs c).toNat =
      ((gs.map (·.toNat)).zipIdx j).foldl (fun c g => if top.toNat.testBit g.2 then c ^^^ g.1 else c) c.toNat := by
  induction gs with
  | nil => intro j c; rfl
  | cons g gs ih =>
    intro j c
    simp only [mixTop, bit_cond, List.map_cons, List.zipIdx_cons, List.foldl_cons]
    rw [ih]
    have : top.getLsbD j = top.toNat.testBit j := rfl
    rw [this]
    cases top.toNat.testBit j <;> simp

theorem round_eq (c : BitVec 32) (v : UInt8) : (polymodStep c v).toNat = Bip173.round c.toNat v.toNat := by
  unfold polymodStep Bip173.round
  simp only
  rw [mix_toNat]
  have h1 : (c >>> 25).toNat = c.toNat / 2 ^ 25 := by
    rw [BitVec.toNat_ushiftRight, Nat.shiftRight_eq_div_pow]
  have h2 : ((c &&& 0x1ffffff#32) <<< 5 ^^^ v.toBitVec.setWidth 32).toNat = (c.toNat % 2 ^ 25) * 32 ^^^ v.toNat := by
    rw [BitVec.toNat_xor, mask_shl_toNat, ← w32_toNat v]; rfl
  rw [h1, h2]
  rfl

theorem fold_toNat (vs : Bytes) : ∀ c : BitVec 32,
    (vs.foldl polymodStep c).toNat = (vs.map (·.toNat)).foldl Bip173.round c.toNat := by
  induction vs with
  | nil => intro c; rfl
  | cons v vs ih => intro c; rw [List.foldl_cons, List.map_cons, List.foldl_cons, ← round_eq, ih]

theorem polymod_toNat (vs : Bytes) : (Bech32.polymod vs).toNat = Bip173.polymod (vs.map (·.toNat)) :=
  fold_toNat vs 1#32

theorem ascii_table : ∀ n < 128, (hrpHigh (UInt8.ofNat n)).toNat = n / 32 ∧ (UInt8.ofNat n &&& 31).toNat = n % 32 := by
  decide +kernel

theorem expand_eq {hrp e : Bytes} (ha : ∀ c ∈ hrp, c < 128) (h : hrpExpand hrp 84 = some e) :
    e.map (·.toNat) = Bip173.expand hrp := by
  unfold hrpExpand at h
  split at h
  · simp at h
  · simp only [Option.some.injEq] at h
    rw [← h]
    unfold Bip173.expand
    have key : ∀ c ∈ hrp, (hrpHigh c).toNat = c.toNat / 32 ∧ (c &&& 31).toNat = c.toNat % 32 := by
      intro c hc
      have := ascii_table c.toNat (by have := ha c hc; exact this)
      rwa [UInt8.ofNat_toNat] at this
    simp only [List.map_append, List.map_map, List.map_cons, List.map_nil]
    congr 1
    · congr 1
      exact List.map_congr_left fun c hc => (key c hc).1
    · exact List.map_congr_left fun c hc => (key c hc).2

theorem flat_bits (w : Nat) (vs : Bytes) : flat w vs = Bip173.bits w (vs.map (·.toNat)) := by
  unfold flat Bip173.bits
  rw [List.flatMap_map]

theorem isText {hrp d data ck : Bytes} (ha : ∀ c ∈ hrp, c < 128) (hc : ck.length = 6) (hf : Fits 5 data)
    (hf2 : Fits 5 ck) (hv : verifyChecksum hrp (data ++ ck) = true)
    (hb : ∃ k < 5, flat 5 data = flat 8 d ++ List.replicate k false) :
    Bip173.IsText hrp d (hrp ++ c!"1" ++ (data ++ ck).map charsetAt) := by
  refine ⟨data.map (·.toNat), ck.map (·.toNat), ?_, by simpa using hc, ?_, ?_, ?_⟩
  · intro v hv
    simp only [List.mem_append, List.mem_map] at hv
    rcases hv with ⟨x, hx, rfl⟩ | ⟨x, hx, rfl⟩
    · exact hf x hx
    · exact hf2 x hx
  · obtain ⟨k, hk, h⟩ := hb
    exact ⟨k, hk, by rw [← flat_bits, ← flat_bits, h]⟩
  · unfold verifyChecksum at hv
    split at hv
    · simp at hv
    · rename_i e he
      rw [beq_iff_eq] at hv
      have := congrArg BitVec.toNat hv
      rw [polymod_toNat, List.map_append, List.map_append, expand_eq ha he, ← List.append_assoc] at this
      exact this
  · rw [← List.map_append, List.map_map]
    rfl

theorem lift_nats (vs : List Nat) (h : ∀ v ∈ vs, v < 32) :
    (vs.map UInt8.ofNat).map (·.toNat) = vs ∧ Fits 5 (vs.map UInt8.ofNat) := by
  have key : ∀ v ∈ vs, (UInt8.ofNat v).toNat = v := by
    intro v hv
    have := h v hv
    rw [UInt8.toNat_ofNat']
    omega
  refine ⟨?_, ?_⟩
  · rw [List.map_map]
    conv => rhs; rw [← List.map_id vs]
    exact List.map_congr_left fun v hv => key v hv
  · intro x hx
    obtain ⟨v, hv, rfl⟩ := List.mem_map.1 hx
    rw [key v hv]
    exact h v hv

/-- There is only one BIP-173 text of a payload. -/
theorem isText_eq {hrp d s : Bytes} (hh : hrp.length ≤ 41) (ha : ∀ c ∈ hrp, c < 128)
    (h : Bip173.IsText hrp d s) : s = text hrp d := by
  obtain ⟨syms, ck', hlt, hl, ⟨k, hk, hbits⟩, hpoly, rfl⟩ := h
  obtain ⟨l1, l2⟩ := lift_nats syms fun v hv => hlt v (List.mem_append_left _ hv)
  obtain ⟨m1, m2⟩ := lift_nats ck' fun v hv => hlt v (List.mem_append_right _ hv)
  obtain ⟨e, he⟩ := hrpExpand_some hh
  obtain ⟨g1, g2, k', hk', g3⟩ := conv_spec d
  have hb : flat 5 (syms.map UInt8.ofNat) = flat 8 d ++ List.replicate k false := by
    rw [flat_bits, l1, hbits, flat_bits]
  have hkk : k = k' := by
    have e1 := congrArg List.length hb
    have e2 := congrArg List.length g3
    simp only [List.length_append, flat_length, List.length_replicate] at e1 e2
    omega
  have hcd : syms.map UInt8.ofNat = conv d := by
    apply flat_inj (by omega) l2 g2
    rw [g3, hb, hkk]
  have hv : polymod ((e ++ syms.map UInt8.ofNat) ++ ck'.map UInt8.ofNat) = 1#32 := by
    apply BitVec.eq_of_toNat_eq
    rw [polymod_toNat, List.map_append, List.map_append, expand_eq ha he, l1, m1, hpoly]
    rfl
  have hu := checksum_unique _ _ (by simpa using hl) m2 hv
  have hck : ck hrp d = ck'.map UInt8.ofNat := by
    simp only [ck, createChecksum, he, Option.getD_some]
    rw [hu, hcd]
  unfold text
  rw [hck, ← hcd, ← List.map_append, List.map_map]
  congr 1
  apply List.map_congr_left
  intro v hv
  have := hlt v hv
  simp only [Function.comp, charsetAt, Bip173.char, charset, UInt8.toNat_ofNat']
  rw [show v % 2 ^ 8 = v by omega]

/-- **C106** (keys and ids): whatever the encoders return for a 32-byte value is the BIP-173 text of that
value under its prefix. -/
theorem C106_key_text (key pre : Bytes) (size : Nat) (s : Bytes) (hk : key.length = 32) (ha : ∀ c ∈ pre, c < 128) :
    (keyToBech32 key pre size = .ok s → Bip173.IsText pre key s) ∧
    (privkeyToBech32 key size = .ok s → Bip173.IsText (c!"nsec") key s) ∧
    (eventIdToBech32 key size = .ok s → Bip173.IsText (c!"note") key s) := by
  have main : ∀ pre : Bytes, (∀ c ∈ pre, c < 128) → encode32 pre key = .ok s → Bip173.IsText pre key s := by
    intro pre ha h
    by_cases hp : pre.length ≤ 41
    · obtain ⟨ck, _, h2, h3, h4, h5⟩ := encode32_ok hp hk
      obtain ⟨d1, d2, d3⟩ := conv_key hk
      rw [h4] at h
      simp only [Res.ok.injEq] at h
      rw [← h, List.append_assoc (pre ++ _), ← List.map_append]
      exact isText ha h2 d2 h3 h5 ⟨4, by omega, d3⟩
    · exfalso
      unfold encode32 createChecksum hrpExpand at h
      simp only at h
      split at h
      · cases h
      · rw [if_pos (by omega)] at h
        cases h
  refine ⟨fun h => ?_, fun h => ?_, fun h => ?_⟩
  · unfold keyToBech32 at h
    split at h
    · cases h
    · exact main pre ha h
  · unfold privkeyToBech32 at h
    split at h
    · cases h
    · exact main _ (by decide) h
  · unfold eventIdToBech32 at h
    split at h
    · cases h
    · exact main _ (by decide) h

/-- **C106** (converse): every text the decoders accept is the BIP-173 text of the result. -/
theorem C106_key_accepted (junk s key : Bytes) (hs : ∀ c ∈ s, c < 128) :
    (keyFromBech32 s = .ok key → ∃ pre, Bip173.IsText pre key s) ∧
    (privkeyFromBech32 junk s = .ok key → Bip173.IsText (c!"nsec") key s) ∧
    (eventIdFromBech32 junk s = .ok key → Bip173.IsText (c!"note") key s) := by
  refine ⟨fun h => ?_, fun h => ?_, fun h => ?_⟩
  · obtain ⟨pre, h1, h2, h3, h4⟩ := (keyFrom_iff s key).1 h
    refine ⟨pre, (C106_key_text key pre (pre.length + 60) s h3 ?_).1 ?_⟩
    · obtain ⟨ck, _, _, _, h5, _⟩ := encode32_ok (pre := pre) (by omega) h3
      rw [h5] at h4
      simp only [Res.ok.injEq] at h4
      intro c hc
      exact hs c (by rw [← h4]; simp [hc])
    · unfold keyToBech32; rw [if_neg (by omega)]; exact h4
  · obtain ⟨h3, h4⟩ := (fixedFrom_iff junk (c!"nsec") s key (by decide)).1 h
    exact (C106_key_text key [] 64 s h3 (by simp)).2.1 (by unfold privkeyToBech32; rw [if_neg (by omega)]; exact h4)
  · obtain ⟨h3, h4⟩ := (fixedFrom_iff junk (c!"note") s key (by decide)).1 h
    exact (C106_key_text key [] 64 s h3 (by simp)).2.2 (by unfold eventIdToBech32; rw [if_neg (by omega)]; exact h4)

example : ∃ s, privkeyToBech32 (List.replicate 32 7) 64 = .ok s ∧ Bip173.IsText (c!"nsec") (List.replicate 32 7) s := by
  obtain ⟨s, h, _⟩ := Nostr.Bech32.Props.C01_privkey_roundtrip [] (List.replicate 32 7) 64 (by decide) (by decide)
  exact ⟨s, h, (C106_key_text _ [] 64 s (by decide) (by simp)).2.1 h⟩

/-- **C106** (TLV entities): the text of a payload, hence of every profile, event, address and relay
pointer, is the BIP-173 text of that payload; and only such texts are decoded. -/
theorem C106_tlv_text (d hrp : Bytes) (ha : ∀ c ∈ hrp, c < 128) (hh : hrp.length ≤ 41) (hd : d ≠ []) :
    (∀ size s, encodeBytes d hrp size = .ok s → Bip173.IsText hrp d s) ∧
    (∀ size s, decodeBytes s hrp size = .ok d → Bip173.IsText hrp d s) := by
  have h0 : Bip173.IsText hrp d (text hrp d) := by
    obtain ⟨_, h2, h3, h4⟩ := ck_spec hh d
    obtain ⟨_, d2, d3⟩ := conv_spec d
    exact isText ha h2 d2 h3 h4 d3
  constructor
  · intro size s h
    rw [encodeBytes_eq hh hd] at h
    split at h
    · cases h
    · simp only [Res.ok.injEq] at h
      exact h ▸ h0
  · intro size s h
    obtain ⟨_, _, e⟩ := (decodeBytes_iff hh s d size).1 h
    exact e ▸ h0

/-- **C106** (decoding is complete): the decoder of TLV entities accepts a text, giving the payload `d`,
exactly when it is the BIP-173 text of a non-empty payload that fits the buffer. -/
theorem C106_decode_iff (s d hrp : Bytes) (ha : ∀ c ∈ hrp, c < 128) (hh : hrp.length ≤ 41) (size : Nat) :
    decodeBytes s hrp size = .ok d ↔ d ≠ [] ∧ d.length ≤ size ∧ Bip173.IsText hrp d s := by
  rw [decodeBytes_iff hh]
  constructor
  · rintro ⟨h1, h2, rfl⟩
    refine ⟨h1, h2, ?_⟩
    obtain ⟨_, h2, h3, h4⟩ := ck_spec hh d
    obtain ⟨_, d2, d3⟩ := conv_spec d
    exact isText ha h2 d2 h3 h4 d3
  · rintro ⟨h1, h2, h3⟩
    exact ⟨h1, h2, isText_eq hh ha h3⟩

example : ∃ s, encodeBytes (c!"abc") (c!"nprofile") 100 = .ok s ∧ Bip173.IsText (c!"nprofile") (c!"abc") s := by
  refine ⟨text (c!"nprofile") (c!"abc"), ?_, ?_⟩
  · rw [encodeBytes_eq (by decide) (by decide), text_length (by decide)]; rfl
  · exact (C106_tlv_text (c!"abc") (c!"nprofile") (by decide) (by decide) (by decide)).1 100 _
      (by rw [encodeBytes_eq (by decide) (by decide), text_length (by decide)]; rfl)

end Nostr.Nip21.Props
