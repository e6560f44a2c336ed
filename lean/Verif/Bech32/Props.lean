import Verif.Bech32.Codec

/-!
# Properties C01–C05: bech32 texts of keys, secrets and event ids

`junk` is the (arbitrary) initial content of the decoder's stack buffer.
-/

namespace Nostr.Bech32.Props
open Nostr Nostr.Bech32

/-! ## C01 round trip -/

/-- **C01** (public keys).  Any 32-byte key, any prefix of 1..31 bytes, any buffer that the encoder's
own size check admits: encoding succeeds, the text plus its NUL fits the buffer, contains no NUL, and
decodes to the same key. -/
theorem C01_key_roundtrip (key pre : Bytes) (size : Nat) (hk : key.length = 32)
    (hp : 1 ≤ pre.length ∧ pre.length ≤ 31) (hc : CStr pre) (hs : pre.length + 60 ≤ size) :
    ∃ s, keyToBech32 key pre size = .ok s ∧ s.length + 1 ≤ size ∧ CStr s ∧
      keyFromBech32 s = .ok key := by
  obtain ⟨ck, _, hcl, hcf, henc, _⟩ := encode32_ok (pre := pre) (by omega) hk
  obtain ⟨d1, d2, _⟩ := conv_key hk
  refine ⟨_, ?_, ?_, ?_, (keyFrom_iff _ key).2 ⟨pre, hp.1, hp.2, hk, henc⟩⟩
  · unfold keyToBech32
    rw [if_neg (by omega)]
    exact henc
  · simp [d1, hcl]; omega
  · intro h0
    simp only [List.mem_append, List.mem_map, List.mem_singleton] at h0
    rcases h0 with ((h0 | h0) | ⟨v, hv, h0⟩) | ⟨v, hv, h0⟩
    · exact hc h0
    · simp at h0
    · exact charsetAt_ne_nul (d2 v hv) h0
    · exact charsetAt_ne_nul (hcf v hv) h0

/-- **C01** (secret keys). -/
theorem C01_privkey_roundtrip (junk key : Bytes) (size : Nat) (hk : key.length = 32)
    (hs : 64 ≤ size) :
    ∃ s, privkeyToBech32 key size = .ok s ∧ s.length + 1 ≤ size ∧ CStr s ∧
      privkeyFromBech32 junk s = .ok key := by
  obtain ⟨s, h1, h2, h3, _⟩ := C01_key_roundtrip key c!"nsec" 64 hk (by decide) (by decide) (by decide)
  have he : encode32 c!"nsec" key = .ok s := by
    unfold keyToBech32 at h1; rw [if_neg (by decide)] at h1; exact h1
  refine ⟨s, ?_, by omega, h3, (fixedFrom_iff junk _ s key (by decide)).2 ⟨hk, he⟩⟩
  unfold privkeyToBech32
  rw [if_neg (by omega)]
  exact he

/-- **C01** (event ids). -/
theorem C01_eventid_roundtrip (junk id : Bytes) (size : Nat) (hk : id.length = 32)
    (hs : 64 ≤ size) :
    ∃ s, eventIdToBech32 id size = .ok s ∧ s.length + 1 ≤ size ∧ CStr s ∧
      eventIdFromBech32 junk s = .ok id := by
  obtain ⟨s, h1, h2, h3, _⟩ := C01_key_roundtrip id c!"note" 64 hk (by decide) (by decide) (by decide)
  have he : encode32 c!"note" id = .ok s := by
    unfold keyToBech32 at h1; rw [if_neg (by decide)] at h1; exact h1
  refine ⟨s, ?_, by omega, h3, (fixedFrom_iff junk _ s id (by decide)).2 ⟨hk, he⟩⟩
  unfold eventIdToBech32
  rw [if_neg (by omega)]
  exact he

/-- Hypotheses of C01 are met, and the text is the expected one: the NIP-19 test vector. -/
example :
    keyToBech32 [0x3b,0xf0,0xc6,0x3f,0xcb,0x93,0x46,0x34,0x07,0xaf,0x97,0xa5,0xe5,0xee,0x64,0xfa,
      0x88,0x3d,0x10,0x7e,0xf9,0xe5,0x58,0x47,0x2c,0x4e,0xb9,0xaa,0xae,0xfa,0x45,0x9d] c!"npub" 64
      = .ok c!"npub180cvv07tjdrrgpa0j7j7tmnyl2yr6yr7l8j4s3evf6u64th6gkwsyjh6w6" := by
  decide +kernel

/-! ## C02 typo detection -/

/-- **C02** (public keys).  The last 58 characters of an accepted text are its data part.  Replacing
one or two of them by any other bytes makes decoding fail with `NOSTR_ERR_ENCODING`. -/
theorem C02_key_typo_rejected (s s' key : Bytes) (h : keyFromBech32 s = .ok key)
    (hlen : s'.length = s.length) (hhead : s'.take (s.length - 58) = s.take (s.length - 58))
    (h1 : 1 ≤ hamming s s') (h2 : hamming s s' ≤ 2) : keyFromBech32 s' = .err .encoding := by
  obtain ⟨pre, p1, p2, hk, he⟩ := (keyFrom_iff s key).1 h
  obtain ⟨ck, _, hcl, _, henc, _⟩ := encode32_ok (pre := pre) (by omega) hk
  obtain ⟨d1, _, _⟩ := conv_key hk
  have hsl : s.length = pre.length + 59 ∧ s.take (pre.length + 1) = pre ++ c!"1" := by
    rw [henc, Res.ok.injEq] at he
    rw [← he]
    refine ⟨by simp [d1, hcl], ?_⟩
    rw [List.append_assoc]
    have : pre.length + 1 = (pre ++ c!"1").length := by simp
    rw [this, List.take_left]
  have hhead' : s'.take (pre.length + 1) = pre ++ c!"1" := by
    have : s.length - 58 = pre.length + 1 := by omega
    rw [this] at hhead
    rw [hhead, hsl.2]
  cases hd : keyFromBech32 s' with
  | err e => rw [keyFrom_err hd]
  | ok key' =>
    exfalso
    obtain ⟨pre', q1, q2, hk', he'⟩ := (keyFrom_iff s' key').1 hd
    obtain ⟨ck', _, hcl', _, henc', _⟩ := encode32_ok (pre := pre') (by omega) hk'
    obtain ⟨d1', _, _⟩ := conv_key hk'
    have he'' := he'
    rw [henc', Res.ok.injEq] at he'
    have hl' : pre'.length = pre.length := by
      have := congrArg List.length he'
      simp [d1', hcl'] at this
      omega
    have hpre : pre' = pre := by
      have h3 : s'.take (pre'.length + 1) = pre' ++ c!"1" := by
        rw [← he', List.append_assoc]
        have : pre'.length + 1 = (pre' ++ c!"1").length := by simp
        rw [this, List.take_left]
      rw [hl', hhead'] at h3
      exact (List.append_inj h3 hl'.symm).1.symm
    rw [hpre] at he''
    have := encode_distance hk hk' he he'' h1
    omega
  | ub =>
    exfalso
    obtain ⟨hb, sep, hsep, hbig⟩ := keyFrom_ub hd
    obtain ⟨l1, l2, l3⟩ := lastOne_some hsep
    have hs' : s' = pre ++ c!"1" ++ s'.drop (pre.length + 1) := by
      rw [← hhead', List.take_append_drop]
    -- the separator of `s` is still there, so the last `'1'` cannot lie further left
    have hmem : (0x31 : UInt8) ∈ s'.drop (sep + 1) := by
      rw [List.mem_iff_getElem]
      refine ⟨pre.length - (sep + 1), by simp; omega, ?_⟩
      rw [List.getElem_drop]
      have hidx : sep + 1 + (pre.length - (sep + 1)) = pre.length := by omega
      simp only [hidx]
      have : s'[pre.length]'(by omega) = (pre ++ c!"1" ++ s'.drop (pre.length + 1))[pre.length]'(by
          rw [← hs']; omega) := by congr 1
      rw [this]
      simp
    exact l3 hmem

/-- **C02** (secret keys): one or two substitutions *anywhere* in the text are rejected. -/
theorem C02_privkey_typo_rejected (junk s s' key : Bytes) (hj : junk.length = 84)
    (h : privkeyFromBech32 junk s = .ok key) (hlen : s'.length = s.length)
    (h1 : 1 ≤ hamming s s') (h2 : hamming s s' ≤ 2) :
    privkeyFromBech32 junk s' = .err .encoding := by
  obtain ⟨hk, he⟩ := (fixedFrom_iff junk _ s key (by decide)).1 h
  cases hd : privkeyFromBech32 junk s' with
  | err e => rw [fixedFrom_err hd]
  | ok key' =>
    exfalso
    obtain ⟨hk', he'⟩ := (fixedFrom_iff junk _ s' key' (by decide)).1 hd
    have := encode_distance hk hk' he he' h1
    omega
  | ub =>
    exfalso
    have h90 := fixedFrom_ub hj hd
    obtain ⟨ck, _, hcl, _, henc, _⟩ := encode32_ok (pre := c!"nsec") (by decide) hk
    obtain ⟨d1, _, _⟩ := conv_key hk
    rw [henc, Res.ok.injEq] at he
    have := congrArg List.length he
    simp [d1, hcl] at this
    omega

/-- **C02** (event ids): one or two substitutions anywhere in the text are rejected. -/
theorem C02_eventid_typo_rejected (junk s s' id : Bytes) (hj : junk.length = 84)
    (h : eventIdFromBech32 junk s = .ok id) (hlen : s'.length = s.length)
    (h1 : 1 ≤ hamming s s') (h2 : hamming s s' ≤ 2) :
    eventIdFromBech32 junk s' = .err .encoding := by
  obtain ⟨hk, he⟩ := (fixedFrom_iff junk _ s id (by decide)).1 h
  cases hd : eventIdFromBech32 junk s' with
  | err e => rw [fixedFrom_err hd]
  | ok key' =>
    exfalso
    obtain ⟨hk', he'⟩ := (fixedFrom_iff junk _ s' key' (by decide)).1 hd
    have := encode_distance hk hk' he he' h1
    omega
  | ub =>
    exfalso
    have h90 := fixedFrom_ub hj hd
    obtain ⟨ck, _, hcl, _, henc, _⟩ := encode32_ok (pre := c!"note") (by decide) hk
    obtain ⟨d1, _, _⟩ := conv_key hk
    rw [henc, Res.ok.injEq] at he
    have := congrArg List.length he
    simp [d1, hcl] at this
    omega

/-- Hypotheses of C02 are met: a valid text and a corruption of it in two places. -/
example :
    keyFromBech32 c!"npub180cvv07tjdrrgpa0j7j7tmnyl2yr6yr7l8j4s3evf6u64th6gkwsyjh6w6" =
      .ok [0x3b,0xf0,0xc6,0x3f,0xcb,0x93,0x46,0x34,0x07,0xaf,0x97,0xa5,0xe5,0xee,0x64,0xfa,
        0x88,0x3d,0x10,0x7e,0xf9,0xe5,0x58,0x47,0x2c,0x4e,0xb9,0xaa,0xae,0xfa,0x45,0x9d] ∧
    hamming c!"npub180cvv07tjdrrgpa0j7j7tmnyl2yr6yr7l8j4s3evf6u64th6gkwsyjh6w6"
      c!"npub180ccv07tjdrrgpa0j7j7tmnyl2yr6yr7l8j4s3evf6u64th6gkwsyjh6wv" = 2 := by
  decide +kernel

/-! ## C03 canonical decoding -/

/-- **C03** (public keys).  Whatever decodes to `key` is the encoder's own output for `key` under the
prefix found in the text. -/
theorem C03_key_canonical (s key : Bytes) (h : keyFromBech32 s = .ok key) :
    ∃ pre rest, s = pre ++ c!"1" ++ rest ∧ (0x31 : UInt8) ∉ rest ∧
      ∀ size, pre.length + 60 ≤ size → keyToBech32 key pre size = .ok s := by
  obtain ⟨pre, p1, p2, hk, he⟩ := (keyFrom_iff s key).1 h
  obtain ⟨ck, _, hcl, hcf, henc, _⟩ := encode32_ok (pre := pre) (by omega) hk
  obtain ⟨d1, d2, _⟩ := conv_key hk
  have he' := he
  rw [henc, Res.ok.injEq] at he'
  refine ⟨pre, _, by rw [← he', List.append_assoc], ?_, ?_⟩
  · intro hm
    simp only [List.mem_append, List.mem_map] at hm
    rcases hm with ⟨v, hv, h0⟩ | ⟨v, hv, h0⟩
    · exact charsetAt_ne_one (d2 v hv) h0
    · exact charsetAt_ne_one (hcf v hv) h0
  · intro size hs
    unfold keyToBech32
    rw [if_neg (by omega)]
    exact he

/-- **C03** (secret keys). -/
theorem C03_privkey_canonical (junk s key : Bytes) (h : privkeyFromBech32 junk s = .ok key) :
    ∀ size, 64 ≤ size → privkeyToBech32 key size = .ok s := by
  intro size hs
  unfold privkeyToBech32
  rw [if_neg (by omega)]
  exact ((fixedFrom_iff junk _ s key (by decide)).1 h).2

/-- **C03** (event ids). -/
theorem C03_eventid_canonical (junk s id : Bytes) (h : eventIdFromBech32 junk s = .ok id) :
    ∀ size, 64 ≤ size → eventIdToBech32 id size = .ok s := by
  intro size hs
  unfold eventIdToBech32
  rw [if_neg (by omega)]
  exact ((fixedFrom_iff junk _ s id (by decide)).1 h).2

/-- **C03**, consequence: with a given prefix, no two different texts decode to one key. -/
theorem C03_key_unique_text (pre r r' key : Bytes) (hr : (0x31 : UInt8) ∉ r)
    (hr' : (0x31 : UInt8) ∉ r') (h : keyFromBech32 (pre ++ c!"1" ++ r) = .ok key)
    (h' : keyFromBech32 (pre ++ c!"1" ++ r') = .ok key) : r = r' := by
  have split : ∀ r p q : Bytes, (0x31 : UInt8) ∉ r → (0x31 : UInt8) ∉ q →
      pre ++ c!"1" ++ r = p ++ c!"1" ++ q → p = pre := by
    intro r p q hr hq he
    have h1 := lastOne_append pre r hr
    have h2 := lastOne_append p q hq
    rw [he, h2, Option.some.injEq] at h1
    have := congrArg (List.take pre.length) he
    rw [List.append_assoc, List.append_assoc, List.take_left] at this
    rw [← h1, List.take_left] at this
    exact this.symm
  obtain ⟨p, q, e1, e2, e3⟩ := C03_key_canonical _ _ h
  obtain ⟨p', q', e1', e2', e3'⟩ := C03_key_canonical _ _ h'
  have hp := split r p q hr e2 e1
  have hp' := split r' p' q' hr' e2' e1'
  have h3 := e3 (pre.length + 60) (by rw [hp]; exact Nat.le_refl _)
  have h3' := e3' (pre.length + 60) (by rw [hp']; exact Nat.le_refl _)
  rw [hp] at h3
  rw [hp', h3, Res.ok.injEq] at h3'
  exact List.append_cancel_left h3'

/-- The hypotheses of C03 are met by the NIP-19 vector; and texts that would be a second spelling
(non-zero padding bits with a correct checksum) exist but are refused. -/
example : verifyChecksum c!"npub" ((List.replicate 51 0 ++ [1]) ++
      (createChecksum c!"npub" (List.replicate 51 0 ++ [1])).getD []) = true ∧
    keyFromBech32 (c!"npub1" ++ ((List.replicate 51 0 ++ [1]) ++
      (createChecksum c!"npub" (List.replicate 51 0 ++ [1])).getD []).map charsetAt)
      = .err .encoding := by decide +kernel

/-! ## C04 entity separation -/

/-- **C04, refuted for public keys**: *every* secret-key text is accepted by the public-key decoder,
and the secret itself is returned as the "public" key. -/
theorem C04_key_accepts_nsec_refuted (secret : Bytes) (h : secret.length = 32) :
    ∃ s, privkeyToBech32 secret 64 = .ok s ∧ keyFromBech32 s = .ok secret := by
  obtain ⟨s, h1, _, _, h3⟩ := C01_key_roundtrip secret c!"nsec" 64 h (by decide) (by decide) (by decide)
  refine ⟨s, ?_, h3⟩
  have he : encode32 c!"nsec" secret = .ok s := by
    unfold keyToBech32 at h1; rw [if_neg (by decide)] at h1; exact h1
  unfold privkeyToBech32
  rw [if_neg (by decide)]
  exact he

/-- **C04, the part that holds**: the secret-key and event-id decoders only accept texts that start
with their own prefix; so no text is accepted by both, and no text produced with another four-letter
prefix is accepted.  Missing: the same for `nostr_key_from_bech32`
(see `C04_key_accepts_nsec_refuted`). -/
theorem C04_entity_separation_partial (junk s k : Bytes) :
    (privkeyFromBech32 junk s = .ok k → s.take 5 = c!"nsec1") ∧
    (eventIdFromBech32 junk s = .ok k → s.take 5 = c!"note1") ∧
    ((privkeyFromBech32 junk s).isOk = true → (eventIdFromBech32 junk s).isOk = false) := by
  have key : ∀ pre : Bytes, fixedFromBech32 junk pre s = .ok k → s.take 5 = pre ++ c!"1" := by
    intro pre h
    unfold fixedFromBech32 at h
    split at h
    · simp at h
    · rename_i htk; simpa using htk
  have key2 : ∀ pre : Bytes, (fixedFromBech32 junk pre s).isOk = true → s.take 5 = pre ++ c!"1" := by
    intro pre h
    unfold fixedFromBech32 at h
    split at h
    · simp [Res.isOk] at h
    · rename_i htk; simpa using htk
  refine ⟨key _, key _, ?_⟩
  intro h
  cases hb : (eventIdFromBech32 junk s).isOk with
  | false => rfl
  | true =>
    have a := key2 _ h
    have b := key2 _ hb
    rw [a] at b
    exact absurd b (by decide)

/-- Hypothesis of the partial theorem is met. -/
example : (privkeyFromBech32 (List.replicate 84 255)
    c!"nsec1vl029mgpspedva04g90vltkh6fvh240zqtv9k0t9af8935ke9laqsnlfe5").isOk = true := by
  decide +kernel

/-! ## C05 memory safety of the decoders -/

/-- **C05, refuted**: a 90-character text makes the public-key decoder write past `data[84]`. -/
theorem C05_key_overflow_refuted : keyFromBech32 (c!"a1" ++ List.replicate 88 0x71) = .ub := by
  decide +kernel

/-- **C05, refuted**: the same with a well-formed `npub1` prefix. -/
theorem C05_npub_overflow_refuted : keyFromBech32 (c!"npub1" ++ List.replicate 85 0x71) = .ub := by
  decide +kernel

/-- **C05, refuted**: a 90-character `nsec1`/`note1` text makes the fixed-prefix decoders write
`data[84]` (one past the end), whatever was on the stack. -/
theorem C05_fixed_overflow_refuted (junk : Bytes) :
    privkeyFromBech32 junk (c!"nsec1" ++ List.replicate 85 0x71) = .ub ∧
    eventIdFromBech32 junk (c!"note1" ++ List.replicate 85 0x71) = .ub := by
  have h : readSyms 84 0 (List.replicate 85 0x71) = .ub := by decide +kernel
  constructor
  · show fixedFromBech32 junk _ _ = _
    unfold fixedFromBech32
    simp only
    rw [if_neg (by decide +kernel), if_neg (by decide +kernel)]
    have e : (c!"nsec1" ++ List.replicate 85 0x71).drop 5 = List.replicate 85 (0x71 : UInt8) := rfl
    rw [e, h]
    rfl
  · show fixedFromBech32 junk _ _ = _
    unfold fixedFromBech32
    simp only
    rw [if_neg (by decide +kernel), if_neg (by decide +kernel)]
    have e : (c!"note1" ++ List.replicate 85 0x71).drop 5 = List.replicate 85 (0x71 : UInt8) := rfl
    rw [e, h]
    rfl

/-- **C05, the part that holds**: for texts of at most 86 characters (89 for the fixed-prefix
decoders), and for any text longer than 90, no buffer is overrun; in particular the `size_t`
wrap-around for `note1`/`nsec1` texts of 8..10 characters is harmless.  Missing: lengths 87..90
(resp. 90), where overflow really happens for suitable texts. -/
theorem C05_decode_in_bounds_partial (junk s : Bytes) (hj : junk.length = 84) :
    (s.length ≤ 86 ∨ 90 < s.length → keyFromBech32 s ≠ .ub) ∧
    (s.length ≠ 90 → privkeyFromBech32 junk s ≠ .ub ∧ eventIdFromBech32 junk s ≠ .ub) := by
  refine ⟨?_, ?_⟩
  · intro hl h
    obtain ⟨hb, sep, hsep, hbig⟩ := keyFrom_ub h
    have h0 : sep ≠ 0 := by
      intro h0
      subst h0
      simp only [keyFromBech32] at h
      rw [if_neg (by omega), hsep] at h
      simp at h
    omega
  · intro hl
    exact ⟨fun h => hl (fixedFrom_ub hj h), fun h => hl (fixedFrom_ub hj h)⟩

/-- The wrap-around path is really taken: `note1kfrvu` (10 characters) has a valid checksum, and the
decoder reads on through the uninitialised buffer before reporting an error. -/
example : readSyms 84 0 c!"kfrvu" = .ok [22, 9, 3, 12, 28] ∧
    verifyChecksum c!"note" [22, 9, 3, 12, 28] = true ∧
    eventIdFromBech32 (List.replicate 84 7) c!"note1kfrvu" = .err .encoding := by
  decide +kernel

end Nostr.Bech32.Props
