import Verif.Nip21.Model
import Verif.Bech32.Codec

/-! # Helper lemmas for NIP-21: the bech32 layer for payloads of any length -/

namespace Nostr.Nip21
open Nostr Nostr.Bech32

theorem readChars_map (vs : Bytes) (hv : Fits 5 vs) : readChars (vs.map charsetAt) = .ok vs := by
  induction vs with
  | nil => rfl
  | cons v vs ih =>
    simp only [List.map_cons, readChars, charset_dec_enc (hv v (by simp))]
    rw [ih (fun x hx => hv x (by simp [hx]))]
    rfl

theorem readChars_inv (cs : Bytes) :
    ∀ vs, readChars cs = .ok vs → cs = vs.map charsetAt ∧ Fits 5 vs := by
  induction cs with
  | nil =>
    intro vs h
    simp only [readChars, Res.ok.injEq] at h
    subst h
    exact ⟨rfl, by intro x hx; simp at hx⟩
  | cons c cs ih =>
    intro vs h
    simp only [readChars] at h
    split at h
    · simp at h
    · rename_i v hv
      rw [Res.bind_eq_ok] at h
      obtain ⟨rest, h1, h2⟩ := h
      simp only [Res.pure_eq, Res.ok.injEq] at h2
      subst h2
      obtain ⟨e1, e2⟩ := ih _ h1
      obtain ⟨d1, d2⟩ := charset_enc_dec hv
      refine ⟨by rw [List.map_cons, ← e1, d2], ?_⟩
      intro x hx
      rcases List.mem_cons.1 hx with rfl | hx
      · exact d1
      · exact e2 x hx

theorem readChars_noub (cs : Bytes) : readChars cs ≠ .ub := by
  induction cs with
  | nil => simp [readChars]
  | cons c cs ih =>
    simp only [readChars]
    split
    · simp
    · intro h
      rw [Res.bind_eq_ub] at h
      rcases h with h | ⟨a, _, h⟩
      · exact ih h
      · simp at h

theorem readChars_err (cs : Bytes) : ∀ e, readChars cs = .err e → e = .encoding := by
  induction cs with
  | nil => intro e h; simp [readChars] at h
  | cons c cs ih =>
    intro e h
    simp only [readChars] at h
    split at h
    · simpa using h.symm
    · cases hr : readChars cs with
      | ok a => rw [hr] at h; simp at h
      | err e' => rw [hr] at h; simp at h; subst h; exact ih _ hr
      | ub => rw [hr] at h; simp at h

/-- Regrouped payload. -/
abbrev conv (d : Bytes) : Bytes := convertBits d ((d.length * 8 + 4) / 5) 8 5 true

theorem conv_spec (d : Bytes) :
    (conv d).length = (d.length * 8 + 4) / 5 ∧ Fits 5 (conv d) ∧
    ∃ k, k < 5 ∧ flat 5 (conv d) = flat 8 d ++ List.replicate k false := by
  obtain ⟨k, hk5, hflat, hfits⟩ := convert_pad_spec (f := 8) (t := 5)
    (L := (d.length * 8 + 4) / 5) (by omega) (by omega) (by omega) d (fits8 d) (by omega)
  have hl := congrArg List.length hflat
  simp only [List.length_append, flat_length, List.length_replicate] at hl
  exact ⟨by unfold conv; omega, hfits, k, hk5, hflat⟩

theorem conv_ne {d : Bytes} (h : d ≠ []) : conv d ≠ [] := by
  intro h0
  have h1 := (conv_spec d).1
  rw [h0] at h1
  have : 0 < d.length := List.length_pos_iff.2 h
  simp at h1
  omega

theorem conv_back' {d : Bytes} {n : Nat} (h : d.length ≤ n) :
    convertBits (conv d) n 5 8 false = d := by
  obtain ⟨_, h2, k, hk, h3⟩ := conv_spec d
  exact convert_strict_complete (by omega) (by omega) _ _ h2 (fits8 d) k hk (by omega) h3 h

theorem drain_len {t L acc : Nat} : ∀ fuel bits out bits' out',
    out.length ≤ L → drain t L acc fuel bits out = some (bits', out') → out'.length ≤ L := by
  intro fuel
  induction fuel with
  | zero => intro bits out bits' out' h hd; simp [drain] at hd; rw [← hd.2]; exact h
  | succ fuel ih =>
    intro bits out bits' out' h hd
    simp only [drain] at hd
    split at hd
    · split at hd
      · simp at hd
      · exact ih _ _ _ _ (by simp; omega) hd
    · simp at hd; rw [← hd.2]; exact h

theorem convLoop_len {f t L : Nat} : ∀ inp acc bits out acc' bits' out',
    out.length ≤ L → convLoop f t L inp acc bits out = some (acc', bits', out') →
    out'.length ≤ L := by
  intro inp
  induction inp with
  | nil => intro acc bits out acc' bits' out' h hd; simp [convLoop] at hd; rw [← hd.2.2]; exact h
  | cons b inp ih =>
    intro acc bits out acc' bits' out' h hd
    simp only [convLoop] at hd
    split at hd
    · simp at hd
    · split at hd
      · simp at hd
      · rename_i b2 o2 hdr
        exact ih _ _ _ _ _ _ (drain_len _ _ _ _ _ h hdr) hd

theorem convertBits_len {inp : Bytes} {L f t : Nat} :
    (convertBits inp L f t false).length ≤ L := by
  simp only [convertBits]
  split
  · simp
  · rename_i acc bits out h
    split
    · rename_i h0; simp at h0
    · split
      · simp
      · exact convLoop_len _ _ _ _ _ _ _ (by simp) h

/-- Checksum symbols appended by the encoder. -/
def ck (hrp d : Bytes) : Bytes := (createChecksum hrp (conv d)).getD []

theorem ck_spec {hrp : Bytes} (h : hrp.length ≤ 41) (d : Bytes) :
    createChecksum hrp (conv d) = some (ck hrp d) ∧ (ck hrp d).length = 6 ∧ Fits 5 (ck hrp d) ∧
    verifyChecksum hrp (conv d ++ ck hrp d) = true := by
  obtain ⟨e, he⟩ := hrpExpand_some h
  have hc : createChecksum hrp (conv d) = some (checksumSyms
      (polymod (e ++ conv d ++ List.replicate 6 0) ^^^ 1#32)) := by
    simp only [createChecksum, he]
  have hck : ck hrp d = checksumSyms (polymod (e ++ conv d ++ List.replicate 6 0) ^^^ 1#32) := by
    simp only [ck, hc, Option.getD_some]
  refine ⟨by rw [hc, hck], by rw [hck]; exact checksumSyms_length _,
    by rw [hck]; exact checksumSyms_fits _, ?_⟩
  rw [hck]
  simp only [verifyChecksum, he, ← List.append_assoc, verify_created]
  rfl

/-- The text of a payload. -/
def text (hrp d : Bytes) : Bytes := hrp ++ c!"1" ++ (conv d ++ ck hrp d).map charsetAt

theorem text_length {hrp : Bytes} (h : hrp.length ≤ 41) (d : Bytes) :
    (text hrp d).length = hrp.length + 7 + (d.length * 8 + 4) / 5 := by
  simp [text, (conv_spec d).1, (ck_spec h d).2.1]; omega

theorem encodeBytes_eq {hrp : Bytes} (h : hrp.length ≤ 41) {d : Bytes} (hd : d ≠ []) (size : Nat) :
    encodeBytes d hrp size =
      if size < (text hrp d).length + 1 then .err .invalidParam else .ok (text hrp d) := by
  unfold encodeBytes
  simp only
  rw [if_neg (conv_ne hd), (ck_spec h d).1, text_length h, (conv_spec d).1]
  congr 1
  · apply propext; constructor <;> intro <;> omega
  · simp [text]

theorem decodeBytes_iff {hrp : Bytes} (h : hrp.length ≤ 41) (s d : Bytes) (n : Nat) :
    decodeBytes s hrp n = .ok d ↔ d ≠ [] ∧ d.length ≤ n ∧ s = text hrp d := by
  constructor
  · intro hd
    simp only [decodeBytes] at hd
    split at hd
    · simp at hd
    · rename_i hlen
      split at hd
      · simp at hd
      · rename_i hpre
        simp only [not_or, Decidable.not_not] at hpre
        rw [Res.bind_eq_ok] at hd
        obtain ⟨data, hr, hd⟩ := hd
        obtain ⟨r1, r2⟩ := readChars_inv _ _ hr
        split at hd
        · rename_i hv
          split at hd
          · simp at hd
          · rename_i h7
            split at hd
            · simp at hd
            · rename_i hne
              simp only [Res.ok.injEq] at hd
              rw [hd] at hne
              obtain ⟨f1, f2, k, k5, k8, hf⟩ := convert_strict_spec (f := 5) (t := 8) (L := n) (by omega) (by omega)
                (data.take (data.length - 6)) (by rw [hd]; exact hne)
              rw [hd] at hf
              have hdn : d.length ≤ n := by rw [← hd]; exact convertBits_len
              obtain ⟨g1, g2, k', hk', g3⟩ := conv_spec d
              have hkk : k = k' := by
                have e1 := congrArg List.length hf
                have e2 := congrArg List.length g3
                simp only [List.length_append, flat_length, List.length_replicate] at e1 e2
                omega
              have hcd : data.take (data.length - 6) = conv d := by
                apply flat_inj (by omega) f1 g2
                rw [g3, hf, hkk]
              refine ⟨hne, hdn, ?_⟩
              unfold verifyChecksum at hv
              split at hv
              · simp at hv
              · rename_i e he
                simp only [beq_iff_eq] at hv
                have hsplit : data = data.take (data.length - 6) ++ data.drop (data.length - 6) :=
                  (List.take_append_drop _ _).symm
                rw [hsplit, ← List.append_assoc] at hv
                have hu := checksum_unique (e ++ data.take (data.length - 6))
                  (data.drop (data.length - 6)) (by rw [List.length_drop]; omega)
                  (fun x hx => r2 x (List.mem_of_mem_drop hx)) hv
                have hck : ck hrp d = data.drop (data.length - 6) := by
                  simp only [ck, createChecksum, he, Option.getD_some]
                  rw [← hcd, ← hu]
                have hs1 : s = s.take hrp.length ++ s.drop hrp.length := (List.take_append_drop _ _).symm
                have hi : hrp.length < s.length := by omega
                have h2 : s.drop hrp.length = s[hrp.length] :: s.drop (hrp.length + 1) :=
                  List.drop_eq_getElem_cons hi
                have hg : s[hrp.length] = 0x31 := by
                  have := hpre.2
                  rw [List.getElem?_eq_getElem hi] at this
                  exact Option.some.inj this
                rw [hs1, h2, hpre.1, hg, r1, text, hck, ← hcd, ← hsplit]
                simp
        · simp at hd
  · rintro ⟨hne, hn, rfl⟩
    obtain ⟨c1, c2, c3, c4⟩ := ck_spec h d
    obtain ⟨g1, g2, _⟩ := conv_spec d
    have hl := text_length h d
    have hpos : 0 < d.length := List.length_pos_iff.2 hne
    have htake : (text hrp d).take hrp.length = hrp := by
      unfold text
      rw [List.append_assoc, List.take_append_of_le_length (Nat.le_refl _), List.take_length]
    have hget : (text hrp d)[hrp.length]? = some 0x31 := by
      unfold text; simp
    have hdrop : (text hrp d).drop (hrp.length + 1) = (conv d ++ ck hrp d).map charsetAt := by
      unfold text
      rw [List.drop_append_of_le_length (by simp)]
      simp
    unfold decodeBytes
    simp only
    rw [if_neg (by omega), htake, hget, if_neg (by simp), hdrop,
      readChars_map _ (g2.append c3)]
    simp only [Res.bind_ok, c4, if_true]
    rw [if_neg (by simp [g1, c2]; omega)]
    have : (conv d ++ ck hrp d).take ((conv d ++ ck hrp d).length - 6) = conv d := by
      rw [List.length_append, c2]
      simp
    rw [this, conv_back' hn, if_neg hne]

theorem decodeBytes_noub (s hrp : Bytes) (n : Nat) : decodeBytes s hrp n ≠ .ub := by
  unfold decodeBytes
  simp only
  split
  · simp
  · split
    · simp
    · intro h
      rw [Res.bind_eq_ub] at h
      rcases h with h | ⟨a, _, h⟩
      · exact readChars_noub _ h
      · split at h
        · split at h
          · simp at h
          · split at h <;> simp at h
        · simp at h

theorem decodeBytes_err {s hrp : Bytes} {n : Nat} {e : Err} (h : decodeBytes s hrp n = .err e) :
    e = .encoding := by
  unfold decodeBytes at h
  simp only at h
  split at h
  · simpa using h.symm
  · split at h
    · simpa using h.symm
    · cases hr : readChars (s.drop (hrp.length + 1)) with
      | ok a =>
        rw [hr] at h
        simp only [Res.bind_ok] at h
        split at h
        · split at h
          · simpa using h.symm
          · split at h
            · simpa using h.symm
            · simp at h
        · simpa using h.symm
      | err e' => rw [hr] at h; simp at h; subst h; exact readChars_err _ _ hr
      | ub => rw [hr] at h; simp at h

end Nostr.Nip21
