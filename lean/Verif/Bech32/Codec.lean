import Verif.Bech32.Lemmas
import Verif.Bech32.Detect

/-! # Helper lemmas for bech32: text level -/

namespace Nostr.Bech32
open Nostr

theorem charset_dec_enc_table : ∀ n < 32, charsetDecode (charsetAt (UInt8.ofNat n)) = some (UInt8.ofNat n)
    ∧ charsetAt (UInt8.ofNat n) ≠ 0x31 ∧ charsetAt (UInt8.ofNat n) ≠ 0 := by decide +kernel

theorem charset_enc_dec_table : ∀ n < 256, ∀ m < 256,
    charsetDecode (UInt8.ofNat n) = some (UInt8.ofNat m) →
      m < 32 ∧ charsetAt (UInt8.ofNat m) = UInt8.ofNat n := by
  have h : ∀ n < 256, (charsetDecode (UInt8.ofNat n)).all
      (fun v => decide (v.toNat < 32) && (charsetAt v == UInt8.ofNat n)) = true := by decide +kernel
  intro n hn m hm hd
  have := h n hn
  rw [hd] at this
  simp at this
  refine ⟨by omega, this.2⟩

theorem charset_dec_enc {v : UInt8} (h : v.toNat < 32) : charsetDecode (charsetAt v) = some v := by
  have := (charset_dec_enc_table v.toNat h).1
  rwa [UInt8.ofNat_toNat] at this

theorem charsetAt_ne_one {v : UInt8} (h : v.toNat < 32) : charsetAt v ≠ 0x31 := by
  have := (charset_dec_enc_table v.toNat h).2.1
  rwa [UInt8.ofNat_toNat] at this

theorem charsetAt_ne_nul {v : UInt8} (h : v.toNat < 32) : charsetAt v ≠ 0 := by
  have := (charset_dec_enc_table v.toNat h).2.2
  rwa [UInt8.ofNat_toNat] at this

theorem charset_enc_dec {c v : UInt8} (h : charsetDecode c = some v) :
    v.toNat < 32 ∧ charsetAt v = c := by
  have := charset_enc_dec_table c.toNat c.toNat_lt v.toNat v.toNat_lt (by
    rw [UInt8.ofNat_toNat, UInt8.ofNat_toNat]; exact h)
  rwa [UInt8.ofNat_toNat, UInt8.ofNat_toNat] at this

theorem readSyms_map (cap : Nat) (vs : Bytes) (hv : Fits 5 vs) :
    ∀ idx, idx + vs.length ≤ cap → readSyms cap idx (vs.map charsetAt) = .ok vs := by
  induction vs with
  | nil => intro idx _; rfl
  | cons v vs ih =>
    intro idx h
    simp only [List.length_cons] at h
    simp only [List.map_cons, readSyms, charset_dec_enc (hv v (by simp))]
    rw [if_neg (by omega), ih (fun x hx => hv x (by simp [hx])) _ (by omega)]
    rfl

theorem readSyms_inv (cap : Nat) (cs : Bytes) :
    ∀ idx vs, readSyms cap idx cs = .ok vs → cs = vs.map charsetAt ∧ Fits 5 vs := by
  induction cs with
  | nil =>
    intro idx vs h
    simp only [readSyms, Res.ok.injEq] at h
    subst h
    exact ⟨rfl, by intro x hx; simp at hx⟩
  | cons c cs ih =>
    intro idx vs h
    simp only [readSyms] at h
    split at h
    · simp at h
    · rename_i v hv
      split at h
      · simp at h
      · rw [Res.bind_eq_ok] at h
        obtain ⟨rest, h1, h2⟩ := h
        simp only [Res.pure_eq, Res.ok.injEq] at h2
        subst h2
        obtain ⟨e1, e2⟩ := ih _ _ h1
        obtain ⟨d1, d2⟩ := charset_enc_dec hv
        refine ⟨by rw [List.map_cons, ← e1, d2], ?_⟩
        intro x hx
        rcases List.mem_cons.1 hx with rfl | hx
        · exact d1
        · exact e2 x hx

theorem readSyms_noub (cap : Nat) (cs : Bytes) :
    ∀ idx, idx + cs.length ≤ cap → readSyms cap idx cs ≠ .ub := by
  induction cs with
  | nil => intro idx _ h; simp [readSyms] at h
  | cons c cs ih =>
    intro idx hl h
    simp only [List.length_cons] at hl
    simp only [readSyms] at h
    split at h
    · simp at h
    · rw [if_neg (by omega), Res.bind_eq_ub] at h
      rcases h with h | ⟨a, _, h⟩
      · exact ih _ (by omega) h
      · simp at h

theorem readSyms_err (cap : Nat) (cs : Bytes) :
    ∀ idx e, readSyms cap idx cs = .err e → e = .encoding := by
  induction cs with
  | nil => intro idx e h; simp [readSyms] at h
  | cons c cs ih =>
    intro idx e h
    simp only [readSyms] at h
    split at h
    · simpa using h.symm
    · split at h
      · simp at h
      · cases hr : readSyms cap (idx + 1) cs with
        | ok a => rw [hr] at h; simp at h
        | err e' => rw [hr] at h; simp at h; subst h; exact ih _ _ hr
        | ub => rw [hr] at h; simp at h

theorem lastOne_append (pre tail : Bytes) (h : (0x31 : UInt8) ∉ tail) :
    lastOne (pre ++ c!"1" ++ tail) = some pre.length := by
  unfold lastOne
  have : (pre ++ c!"1" ++ tail).reverse = tail.reverse ++ 0x31 :: pre.reverse := by simp
  rw [this, List.findIdx?_append]
  have hn : List.findIdx? (fun x => x == (0x31 : UInt8)) tail.reverse = none := by
    rw [List.findIdx?_eq_none_iff]
    intro x hx
    simp only [List.mem_reverse] at hx
    simp only [beq_eq_false_iff_ne, ne_eq]
    intro h'
    subst h'
    exact h hx
  rw [hn]
  simp [List.findIdx?_cons]

theorem lastOne_some {s : Bytes} {i : Nat} (h : lastOne s = some i) :
    i < s.length ∧ s = s.take i ++ c!"1" ++ s.drop (i + 1) ∧ (0x31 : UInt8) ∉ s.drop (i + 1) := by
  unfold lastOne at h
  split at h
  · simp at h
  · rename_i k hk
    simp only [Option.some.injEq] at h
    rw [List.findIdx?_eq_some_iff_getElem] at hk
    obtain ⟨hlt, hp, hmin⟩ := hk
    simp only [List.length_reverse] at hlt
    have hi : i < s.length := by omega
    have hget : s[i] = 0x31 := by
      rw [List.getElem_reverse] at hp
      simp only [beq_iff_eq] at hp
      subst h
      exact hp
    refine ⟨hi, ?_, ?_⟩
    · have h1 : s = s.take i ++ s.drop i := (List.take_append_drop i s).symm
      have h2 : s.drop i = s[i] :: s.drop (i + 1) := List.drop_eq_getElem_cons hi
      rw [h2, hget] at h1
      rw [List.append_assoc]
      exact h1
    · intro hmem
      rw [List.mem_iff_getElem] at hmem
      obtain ⟨j, hj, hjv⟩ := hmem
      simp only [List.length_drop] at hj
      rw [List.getElem_drop] at hjv
      have hm := hmin (s.length - 1 - (i + 1 + j)) (by omega)
      rw [List.getElem_reverse] at hm
      apply hm
      simp only [beq_iff_eq]
      have : s.length - 1 - (s.length - 1 - (i + 1 + j)) = i + 1 + j := by omega
      simp only [this]
      exact hjv

/-! ## 32-byte payloads -/

theorem conv_key {key : Bytes} (hk : key.length = 32) :
    (convertBits key 52 8 5 true).length = 52 ∧ Fits 5 (convertBits key 52 8 5 true) ∧
    flat 5 (convertBits key 52 8 5 true) = flat 8 key ++ List.replicate 4 false := by
  obtain ⟨k, hk5, hflat, hfits⟩ := convert_pad_spec (f := 8) (t := 5) (L := 52) (by omega) (by omega)
    (by omega) key (fits8 key) (by omega)
  have hl := congrArg List.length hflat
  simp only [List.length_append, flat_length, List.length_replicate, hk] at hl
  have hk4 : k = 4 := by omega
  subst hk4
  exact ⟨by omega, hfits, hflat⟩

theorem conv_back {key : Bytes} (hk : key.length = 32) :
    convertBits (convertBits key 52 8 5 true) 32 5 8 false = key := by
  obtain ⟨h1, h2, h3⟩ := conv_key hk
  exact convert_strict_complete (by omega) (by omega) _ _ h2 (fits8 key) 4 (by omega) (by omega)
    h3 (by omega)

theorem conv_canonical {data : Bytes} (h : (convertBits data 32 5 8 false).length = 32) :
    data.length = 52 ∧ convertBits (convertBits data 32 5 8 false) 52 8 5 true = data := by
  have hne : convertBits data 32 5 8 false ≠ [] := by
    intro h0; rw [h0] at h; simp at h
  obtain ⟨f1, f2, k, k5, k8, hf⟩ := convert_strict_spec (by omega) (by omega) data hne
  have hl := congrArg List.length hf
  simp only [List.length_append, flat_length, List.length_replicate, h] at hl
  have hk : k = 4 := by omega
  subst hk
  obtain ⟨g1, g2, g3⟩ := conv_key h
  refine ⟨by omega, ?_⟩
  apply flat_inj (by omega) g2 f1
  rw [g3, hf]

theorem hrpExpand_some {pre : Bytes} (h : pre.length ≤ 41) : ∃ e, hrpExpand pre 84 = some e := by
  unfold hrpExpand
  rw [if_neg (by omega)]
  exact ⟨_, rfl⟩

theorem encode32_ok {pre key : Bytes} (hp : pre.length ≤ 41) (hk : key.length = 32) :
    ∃ ck, createChecksum pre (convertBits key 52 8 5 true) = some ck ∧ ck.length = 6 ∧ Fits 5 ck ∧
      encode32 pre key = .ok (pre ++ c!"1" ++ (convertBits key 52 8 5 true).map charsetAt
        ++ ck.map charsetAt) ∧
      verifyChecksum pre (convertBits key 52 8 5 true ++ ck) = true := by
  obtain ⟨e, he⟩ := hrpExpand_some hp
  obtain ⟨h1, _, _⟩ := conv_key hk
  have hne : convertBits key 52 8 5 true ≠ [] := by intro h; rw [h] at h1; simp at h1
  refine ⟨checksumSyms (polymod (e ++ convertBits key 52 8 5 true ++ List.replicate 6 0) ^^^ 1#32),
    by simp only [createChecksum, he], checksumSyms_length _, checksumSyms_fits _, ?_, ?_⟩
  · simp only [encode32, if_neg hne, createChecksum, he]
  · simp only [verifyChecksum, he, ← List.append_assoc, verify_created]
    rfl

/-- Text shape of an accepted payload: what the checksum and the regrouping check establish. -/
theorem accepted_shape {pre data : Bytes} (hf : Fits 5 data) (hlen : 6 ≤ data.length)
    (hv : verifyChecksum pre data = true)
    (hd : (convertBits (data.take (data.length - 6)) 32 5 8 false).length = 32) :
    data.length = 58 ∧ encode32 pre (convertBits (data.take (data.length - 6)) 32 5 8 false)
      = .ok (pre ++ c!"1" ++ data.map charsetAt) := by
  obtain ⟨c1, c2⟩ := conv_canonical hd
  simp only [List.length_take] at c1
  have hl : data.length = 58 := by omega
  refine ⟨hl, ?_⟩
  unfold verifyChecksum at hv
  split at hv
  · simp at hv
  · rename_i e he
    simp only [beq_iff_eq] at hv
    have hsplit : data = data.take (data.length - 6) ++ data.drop (data.length - 6) :=
      (List.take_append_drop _ _).symm
    rw [hsplit, ← List.append_assoc] at hv
    have hu := checksum_unique (e ++ data.take (data.length - 6)) (data.drop (data.length - 6))
      (by simp; omega) (fun x hx => hf x (List.mem_of_mem_drop hx)) hv
    have hne : data.take (data.length - 6) ≠ [] := by
      intro h; have := congrArg List.length h; simp only [List.length_take, List.length_nil] at this; omega
    unfold encode32
    simp only [c2, if_neg hne, createChecksum, he]
    rw [← hu, List.append_assoc, ← List.map_append, ← hsplit]

/-- `nostr_key_from_bech32` accepts exactly the encodings of 32-byte keys with a 1..31 byte prefix. -/
theorem keyFrom_iff (s key : Bytes) :
    keyFromBech32 s = .ok key ↔
      ∃ pre, 1 ≤ pre.length ∧ pre.length ≤ 31 ∧ key.length = 32 ∧ encode32 pre key = .ok s := by
  constructor
  · intro h
    simp only [keyFromBech32] at h
    split at h
    · simp at h
    · rename_i hlen
      split at h
      · simp at h
      · rename_i sep hsep
        split at h
        · simp at h
        · rename_i h0
          split at h
          · simp at h
          · rw [Res.bind_eq_ok] at h
            obtain ⟨data, hr, h⟩ := h
            obtain ⟨l1, l2, l3⟩ := lastOne_some hsep
            obtain ⟨r1, r2⟩ := readSyms_inv _ _ _ _ hr
            have hdl : data.length = s.length - sep - 1 := by
              have := congrArg List.length r1
              simp only [List.length_drop, List.length_map] at this
              omega
            split at h
            · rename_i hv
              split at h
              · simp at h
              · rename_i hd
                simp only [Res.ok.injEq] at h
                rw [← hdl] at h hd
                simp only [ne_eq, Decidable.not_not] at hd
                obtain ⟨a1, a2⟩ := accepted_shape r2 (by omega) hv hd
                refine ⟨s.take sep, by simp; omega, by simp; omega, by rw [← h]; exact hd, ?_⟩
                rw [← h, a2, ← r1]
                congr 1
                exact l2.symm
            · simp at h
  · rintro ⟨pre, hp1, hp2, hk, he⟩
    obtain ⟨ck, hc, hcl, hcf, henc, hver⟩ := encode32_ok (pre := pre) (by omega) hk
    obtain ⟨d1, d2, d3⟩ := conv_key hk
    rw [henc, Res.ok.injEq] at he
    rw [List.append_assoc, ← List.map_append] at he
    have hF : Fits 5 (convertBits key 52 8 5 true ++ ck) := d2.append hcf
    have hone : (0x31 : UInt8) ∉ (convertBits key 52 8 5 true ++ ck).map charsetAt := by
      intro hm
      rw [List.mem_map] at hm
      obtain ⟨v, hv, hv'⟩ := hm
      exact charsetAt_ne_one (hF v hv) hv'
    have hsl : s.length = pre.length + 59 := by
      rw [← he]; simp [d1, hcl]
    have hdrop : s.drop (pre.length + 1) = (convertBits key 52 8 5 true ++ ck).map charsetAt := by
      rw [← he, List.drop_append_of_le_length (by simp)]
      simp
    have htake : s.take pre.length = pre := by
      rw [← he, List.append_assoc, List.take_append_of_le_length (Nat.le_refl _), List.take_length]
    unfold keyFromBech32
    simp only
    rw [if_neg (by omega)]
    have hl1 : lastOne s = some pre.length := by rw [← he]; exact lastOne_append pre _ hone
    rw [hl1]
    simp only
    rw [if_neg (by omega), if_neg (by omega), hdrop,
      readSyms_map 84 _ hF 0 (by simp [d1, hcl])]
    simp only [Res.bind_ok]
    rw [htake, hver]
    have htk : (convertBits key 52 8 5 true ++ ck).take (s.length - pre.length - 1 - 6)
        = convertBits key 52 8 5 true := by
      rw [List.take_append_of_le_length (by omega), List.take_of_length_le (by omega)]
    rw [htk, conv_back hk]
    simp [hk]

/-- `nostr_privkey_from_bech32` / `nostr_event_id_from_bech32` accept exactly the encodings with
their own prefix. -/
theorem fixedFrom_iff (junk pre s key : Bytes) (hp : pre.length = 4) :
    fixedFromBech32 junk pre s = .ok key ↔ key.length = 32 ∧ encode32 pre key = .ok s := by
  constructor
  · intro h
    simp only [fixedFromBech32] at h
    split at h
    · simp at h
    · rename_i htk
      simp only [ne_eq, Decidable.not_not] at htk
      split at h
      · simp at h
      · rename_i hlen
        rw [Res.bind_eq_ok] at h
        obtain ⟨data, hr, h⟩ := h
        obtain ⟨r1, r2⟩ := readSyms_inv _ _ _ _ hr
        have hdl : data.length = s.length - 5 := by
          have := congrArg List.length r1
          simp only [List.length_drop, List.length_map] at this
          omega
        split at h
        · rename_i hv
          split at h
          · split at h <;> simp at h
          · rename_i h11
            split at h
            · simp at h
            · rename_i hd
              simp only [Res.ok.injEq] at h
              rw [← hdl] at h hd
              simp only [ne_eq, Decidable.not_not] at hd
              obtain ⟨a1, a2⟩ := accepted_shape r2 (by omega) hv hd
              refine ⟨by rw [← h]; exact hd, ?_⟩
              rw [← h, a2, ← r1, ← htk, List.take_append_drop]
        · simp at h
  · rintro ⟨hk, he⟩
    obtain ⟨ck, hc, hcl, hcf, henc, hver⟩ := encode32_ok (pre := pre) (by omega) hk
    obtain ⟨d1, d2, d3⟩ := conv_key hk
    rw [henc, Res.ok.injEq] at he
    rw [List.append_assoc, ← List.map_append] at he
    have hF : Fits 5 (convertBits key 52 8 5 true ++ ck) := d2.append hcf
    have hsl : s.length = 63 := by
      rw [← he]; simp [d1, hcl, hp]
    have hdrop : s.drop 5 = (convertBits key 52 8 5 true ++ ck).map charsetAt := by
      have : (pre ++ c!"1").length = 5 := by simp [hp]
      rw [← he, ← this, List.drop_left]
    have htake : s.take 5 = pre ++ c!"1" := by
      have : (pre ++ c!"1").length = 5 := by simp [hp]
      rw [← he, ← this, List.take_left]
    unfold fixedFromBech32
    simp only
    rw [if_neg (by simp [htake]), if_neg (by omega), hdrop,
      readSyms_map 84 _ hF 0 (by simp [d1, hcl])]
    simp only [Res.bind_ok]
    rw [hver]
    have htk : (convertBits key 52 8 5 true ++ ck).take (s.length - 5 - 6)
        = convertBits key 52 8 5 true := by
      rw [List.take_append_of_le_length (by omega), List.take_of_length_le (by omega)]
    simp only [if_true]
    rw [if_neg (by omega), htk, conv_back hk]
    simp [hk]

/-- Decoders only report `NOSTR_ERR_ENCODING`. -/
theorem keyFrom_err {s : Bytes} {e : Err} (h : keyFromBech32 s = .err e) : e = .encoding := by
  simp only [keyFromBech32] at h
  split at h
  · simpa using h.symm
  · split at h
    · simpa using h.symm
    · rename_i sep _
      split at h
      · simpa using h.symm
      · split at h
        · simpa using h.symm
        · cases hr : readSyms 84 0 (s.drop (sep + 1)) with
          | ok a =>
            rw [hr, Res.bind_ok] at h
            split at h
            · split at h
              · simpa using h.symm
              · simp at h
            · simpa using h.symm
          | err e' =>
            rw [hr, Res.bind_err] at h
            simp only [Res.err.injEq] at h
            subst h
            exact readSyms_err _ _ _ _ hr
          | ub => rw [hr, Res.bind_ub] at h; simp at h

theorem fixedFrom_err {junk pre s : Bytes} {e : Err} (h : fixedFromBech32 junk pre s = .err e) :
    e = .encoding := by
  simp only [fixedFromBech32] at h
  split at h
  · simpa using h.symm
  · split at h
    · simpa using h.symm
    · cases hr : readSyms 84 0 (s.drop 5) with
      | ok a =>
        rw [hr, Res.bind_ok] at h
        split at h
        · split at h
          · split at h
            · simpa using h.symm
            · simp at h
          · split at h
            · simpa using h.symm
            · simp at h
        · simpa using h.symm
      | err e' =>
        rw [hr, Res.bind_err] at h
        simp only [Res.err.injEq] at h
        subst h
        exact readSyms_err _ _ _ _ hr
      | ub => rw [hr, Res.bind_ub] at h; simp at h

/-- Overflow of `data[84]` needs more than 84 characters after the separator. -/
theorem keyFrom_ub {s : Bytes} (h : keyFromBech32 s = .ub) :
    s.length ≤ 90 ∧ ∃ sep, lastOne s = some sep ∧ 84 < s.length - (sep + 1) := by
  simp only [keyFromBech32] at h
  split at h
  · simp at h
  · rename_i hlen
    split at h
    · simp at h
    · rename_i sep hsep
      split at h
      · simp at h
      · split at h
        · simp at h
        · rw [Res.bind_eq_ub] at h
          rcases h with h | ⟨data, _, h⟩
          · refine ⟨by omega, sep, hsep, ?_⟩
            apply Classical.byContradiction
            intro hc
            exact readSyms_noub 84 (s.drop (sep + 1)) 0 (by simp; omega) h
          · split at h
            · split at h <;> simp at h
            · simp at h

theorem fixedFrom_ub {junk pre s : Bytes} (hj : junk.length = 84)
    (h : fixedFromBech32 junk pre s = .ub) : s.length = 90 := by
  simp only [fixedFromBech32] at h
  split at h
  · simp at h
  · split at h
    · simp at h
    · rename_i hlen
      rw [Res.bind_eq_ub] at h
      rcases h with h | ⟨data, hr, h⟩
      · apply Classical.byContradiction
        intro hc
        exact readSyms_noub 84 (s.drop 5) 0 (by simp; omega) h
      · split at h
        · split at h
          · rename_i h11
            split at h
            · simp at h
            · rename_i r hloop
              obtain ⟨r1, _⟩ := readSyms_inv _ _ _ _ hr
              have hdl : data.length = s.length - 5 := by
                have := congrArg List.length r1
                simp only [List.length_drop, List.length_map] at this
                omega
              exfalso
              obtain ⟨acc, bits, out⟩ := r
              obtain ⟨g1, g2, g3, g4⟩ := convLoop_spec (by omega) (by omega) _ _ _ _ _ _ _ (by omega)
                (by intro x hx; simp at hx) hloop
              have hl := congrArg List.length g1
              simp only [List.length_append, flat_length, bitsBE_length, List.length_drop, hj,
                List.length_nil] at hl
              have hout : out.length ≤ 32 := by
                have : ∀ (inp : Bytes) acc bits (out : Bytes) r, out.length ≤ 32 →
                    convLoop 5 8 32 inp acc bits out = some r → r.2.2.length ≤ 32 := by
                  intro inp
                  induction inp with
                  | nil => intro acc bits out r ho hc; simp only [convLoop, Option.some.injEq] at hc; subst hc; exact ho
                  | cons b rest ih =>
                    intro acc bits out r ho hc
                    simp only [convLoop] at hc
                    split at hc
                    · simp at hc
                    · split at hc
                      · simp at hc
                      · rename_i bits1 out1 hd
                        refine ih _ _ _ _ ?_ hc
                        have hdr : ∀ fuel bits (out : Bytes) acc r, out.length ≤ 32 →
                            drain 8 32 acc fuel bits out = some r → r.2.length ≤ 32 := by
                          intro fuel
                          induction fuel with
                          | zero => intro bits out acc r ho hc; simp only [drain, Option.some.injEq] at hc; subst hc; exact ho
                          | succ fuel ih2 =>
                            intro bits out acc r ho hc
                            simp only [drain] at hc
                            split at hc
                            · split at hc
                              · simp at hc
                              · exact ih2 _ _ _ _ (by simp; omega) hc
                            · simp only [Option.some.injEq] at hc; subst hc; exact ho
                        exact hdr _ _ _ _ _ ho hd
                exact this _ _ _ _ _ (by simp) hloop
              omega
          · split at h <;> simp at h
        · simp at h

theorem hamming_map {xs ys : Bytes} (hx : Fits 5 xs) (hy : Fits 5 ys) :
    hamming (xs.map charsetAt) (ys.map charsetAt) = hamming xs ys := by
  induction xs generalizing ys with
  | nil => simp [hamming]
  | cons x xs ih =>
    cases ys with
    | nil => simp [hamming]
    | cons y ys =>
      simp only [List.map_cons, hamming]
      rw [ih (fun z hz => hx z (by simp [hz])) (fun z hz => hy z (by simp [hz]))]
      congr 1
      by_cases h : x = y
      · simp [h]
      · have : charsetAt x ≠ charsetAt y := by
          intro h'
          have h1 := charset_dec_enc (hx x (by simp))
          rw [h', charset_dec_enc (hy y (by simp))] at h1
          exact h (Option.some.inj h1).symm
        simp [h, this]

theorem hamming_append {xs ys us vs : Bytes} (h : xs.length = ys.length) :
    hamming (xs ++ us) (ys ++ vs) = hamming xs ys + hamming us vs := by
  induction xs generalizing ys with
  | nil =>
    cases ys with
    | nil => simp [hamming]
    | cons y ys => simp at h
  | cons x xs ih =>
    cases ys with
    | nil => simp at h
    | cons y ys => simp only [List.cons_append, hamming, ih (by simpa using h)]; omega

theorem hamming_self (xs : Bytes) : hamming xs xs = 0 := by
  induction xs with
  | nil => rfl
  | cons x xs ih => simp [hamming, ih]

/-- Two different encodings with the same prefix differ in at least three places. -/
theorem encode_distance {pre k k' s s' : Bytes} (hk : k.length = 32)
    (hk' : k'.length = 32) (h : encode32 pre k = .ok s) (h' : encode32 pre k' = .ok s')
    (h1 : 1 ≤ hamming s s') : 3 ≤ hamming s s' := by
  have hp : pre.length ≤ 41 := by
    apply Classical.byContradiction
    intro hc
    obtain ⟨h1, _, _⟩ := conv_key hk
    have hne : convertBits k 52 8 5 true ≠ [] := by intro h; rw [h] at h1; simp at h1
    have : hrpExpand pre 84 = none := by unfold hrpExpand; rw [if_pos (by omega)]
    simp [encode32, if_neg hne, createChecksum, this] at h
  apply Classical.byContradiction
  intro h3
  obtain ⟨ck, _, hcl, hcf, henc, hver⟩ := encode32_ok (pre := pre) hp hk
  obtain ⟨ck', _, hcl', hcf', henc', hver'⟩ := encode32_ok (pre := pre) hp hk'
  obtain ⟨d1, d2, _⟩ := conv_key hk
  obtain ⟨d1', d2', _⟩ := conv_key hk'
  rw [henc, Res.ok.injEq, List.append_assoc, ← List.map_append] at h
  rw [henc', Res.ok.injEq, List.append_assoc, ← List.map_append] at h'
  have hF : Fits 5 (convertBits k 52 8 5 true ++ ck) := d2.append hcf
  have hF' : Fits 5 (convertBits k' 52 8 5 true ++ ck') := d2'.append hcf'
  rw [← h, ← h', hamming_append rfl, hamming_self, hamming_map hF hF'] at h1 h3
  obtain ⟨e, he⟩ := hrpExpand_some hp
  simp only [verifyChecksum, he, beq_iff_eq] at hver hver'
  rw [polymod_eq, List.map_append, polyFrom_append] at hver hver'
  refine detect_two _ _ ?_ hF hF' ?_ (polyFrom 1#32 (e.map w32)) ?_ (by omega) (by omega)
    (hver.trans hver'.symm)
  · simp [d1, d1', hcl, hcl']
  · simp [d1, hcl]
  · have := polymod_bound e
    rwa [polymod_eq] at this

end Nostr.Bech32
