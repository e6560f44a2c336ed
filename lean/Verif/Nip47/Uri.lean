import Verif.Nip47.Spec
import Verif.Hex.Lemmas
import Verif.RelayProto.Lemmas

/-! # Connection URIs: C37 -/

namespace Nostr.Nip47.Props
open Nostr Nostr.Nip47 Nostr.Json Nostr.RelayProto Spec

theorem join16 : ∀ u < 16, ∀ v < 16, u <<< 4 ||| v = u * 16 + v := by decide +kernel

theorem hexPair_two {a b x : UInt8} (h : HexFor [a, b] [x]) : hexPair a b = some x := by
  have h1 := (Hex.pairs_iff [a, b] [x] (by simp)).2 h
  simp only [Hex.pairs] at h1
  unfold hexPair
  split at h1
  · rename_i u v hu hv
    rw [hv, hu]
    simp only [Option.some.injEq, List.cons.injEq, and_true] at h1 ⊢
    rw [← join16 u (Hex.nibble_lt hu) v (Hex.nibble_lt hv), h1]
  · simp at h1

theorem hexFor_cons {a b : UInt8} {s bs : Bytes} (h : HexFor (a :: b :: s) bs) :
    ∃ x t, bs = x :: t ∧ HexFor [a, b] [x] ∧ HexFor s t := by
  unfold HexFor at h ⊢
  cases bs with
  | nil => simp [Hex.Spec.lowerHex, Hex.Spec.hexText] at h
  | cons x t =>
    refine ⟨x, t, rfl, ?_⟩
    simp only [Hex.Spec.lowerHex, Hex.Spec.hexText, List.map_cons, List.map_nil, List.flatMap_cons, List.flatMap_nil,
      Hex.Spec.hexOf, List.cons_append, List.nil_append, List.append_nil, List.cons.injEq] at h ⊢
    exact ⟨⟨h.1, h.2.1, trivial⟩, h.2.2⟩

theorem hexPairs_for : ∀ (bs s : Bytes), HexFor s bs → hexPairs s = some bs := by
  intro bs
  induction bs with
  | nil =>
    intro s h
    have : s = [] := by
      unfold HexFor at h
      simpa [Hex.Spec.lowerHex, Hex.Spec.hexText] using h
    subst this; rfl
  | cons x bs ih =>
    intro s h
    have hl : s.length = 2 * (bs.length + 1) := by
      have := congrArg List.length h
      rw [Hex.lowerHex_length, Hex.hexText_length] at this
      simpa using this
    match s, hl with
    | a :: b :: s, _ =>
      obtain ⟨y, t, he, h1, h2⟩ := hexFor_cons h
      simp only [List.cons.injEq] at he
      obtain ⟨rfl, rfl⟩ := he
      simp only [hexPairs, hexPair_two h1, ih s h2, Option.map_some]

theorem hexDecode_for {s bs : Bytes} {n : Nat} (h : HexFor s bs) (hn : bs.length = n) : hexDecode s n = some bs ∧ s.length = 2 * n := by
  have hl : s.length = 2 * bs.length := by
    have := congrArg List.length h
    rwa [Hex.lowerHex_length, Hex.hexText_length] at this
  refine ⟨?_, by omega⟩
  unfold hexDecode
  rw [if_neg (by omega), hexPairs_for bs s h]

theorem urlBytes_encodes {t v : Bytes} (h : Encodes t v) : urlBytes t = v ∧ CStr v ∧ 0x26 ∉ t := by
  induction h with
  | nil => exact ⟨rfl, by simp [CStr], by simp⟩
  | @plain c t v h1 h2 h3 _ ih =>
    refine ⟨?_, ?_, ?_⟩
    · cases t with
      | nil => rw [urlBytes.eq_def]; rw [urlBytes.eq_def] at ih; simp only at ih ⊢; rw [← ih.1]
      | cons a t =>
        cases t with
        | nil => rw [urlBytes.eq_def]; rw [urlBytes.eq_def] at ih; simp only at ih ⊢; rw [← ih.1]
        | cons b t => rw [urlBytes]; simp only [h1, if_false]; rw [ih.1]
    · have := ih.2.1; simp only [CStr, List.mem_cons, not_or] at this ⊢; exact ⟨Ne.symm h3, this⟩
    · simp only [List.mem_cons, not_or]; exact ⟨Ne.symm h2, ih.2.2⟩
  | @pct a b x t v h1 h2 _ ih =>
    refine ⟨?_, ?_, ?_⟩
    · rw [urlBytes]; simp only [if_true, hexPair_two h1]; rw [ih.1]
    · have := ih.2.1; simp only [CStr, List.mem_cons, not_or] at this ⊢; exact ⟨Ne.symm h2, this⟩
    · have h3 : Hex.Spec.IsHexDigit a ∧ Hex.Spec.IsHexDigit b := by
        rw [Hex.isHex_iff, Hex.isHex_iff]
        have h4 := (Hex.pairs_iff [a, b] [x] (by simp)).2 h1
        simp only [Hex.pairs] at h4
        split at h4
        · rename_i u v hu hv; simp [hu, hv]
        · simp at h4
      simp only [List.mem_cons, not_or]
      refine ⟨by decide, ?_, ?_, ih.2.2⟩
      · rintro rfl; have := h3.1; revert this; unfold Hex.Spec.IsHexDigit; decide
      · rintro rfl; have := h3.2; revert this; unfold Hex.Spec.IsHexDigit; decide

theorem urlDecode_encodes {t v : Bytes} (h : Encodes t v) : urlDecode t = v := by
  obtain ⟨h1, h2, -⟩ := urlBytes_encodes h
  unfold urlDecode
  rw [h1, cstr_self h2]

theorem names_ne : (c!"secret") ≠ (c!"relay") ∧ (c!"lud16") ≠ (c!"relay") ∧ (c!"lud16") ≠ (c!"secret") ∧
    (c!"relay") ≠ (c!"secret") ∧ (c!"relay") ≠ (c!"lud16") ∧ (c!"secret") ≠ (c!"lud16") := by decide

theorem params_items (ps : List (Bytes × Bytes)) : ∀ (c : Conn), Clean ps →
    (∀ t ∈ values (c!"secret") ps, t.length = 64 ∧ ∃ b, hexDecode t 32 = some b) →
    params c (ps.map fun p => p.1 ++ 0x3d :: p.2) =
      .ok ⟨c.relays ++ (values (c!"relay") ps).map urlDecode,
        (values (c!"secret") ps).foldl (fun _ t => hexDecode t 32) c.secret, c.key,
        (values (c!"lud16") ps).foldl (fun _ t => some (urlDecode t)) c.lud16⟩ := by
  induction ps with
  | nil => intro c _ _; simp [params, values]
  | cons p ps ih =>
    intro c hc hs
    obtain ⟨n, t⟩ := p
    have hp := hc (n, t) (by simp)
    have hc' : Clean ps := fun q hq => hc q (by simp [hq])
    obtain ⟨n1, n2, n3, n4, n5, n6⟩ := names_ne
    simp only [List.map_cons, params, param, strchr_append hp.1]
    by_cases h1 : n = c!"relay"
    · subst h1
      simp only [if_true, Res.bind_ok]
      rw [ih _ hc' (by intro u hu; exact hs u (by simpa [values, n4] using hu))]
      simp [values, n4, n5]
    simp only [h1, if_false]
    by_cases h2 : n = c!"secret"
    · subst h2
      have := hs t (by simp [values])
      obtain ⟨b, hb⟩ := this.2
      simp only [if_true, this.1, ne_eq, not_true_eq_false, if_false, hb, Res.bind_ok]
      rw [ih _ hc' (by intro u hu; exact hs u (by
        simp only [values, List.filter_cons, decide_true, if_true, List.map_cons, List.mem_cons]; right; exact hu))]
      simp [values, n1, n6, hb]
    simp only [h2, if_false]
    have hs' : ∀ t ∈ values (c!"secret") ps, t.length = 64 ∧ ∃ b, hexDecode t 32 = some b := by
      intro u hu; exact hs u (by simpa [values, h2] using hu)
    by_cases h3 : n = c!"lud16"
    · subst h3
      simp only [if_true, Res.bind_ok]
      rw [ih _ hc' hs']
      simp [values, n2, n3]
    simp only [h3, if_false, Res.bind_ok]
    rw [ih _ hc' hs']
    simp [values, h1, h2, h3]

theorem each_decode {ts vs : List Bytes} (h : Text.Each Encodes ts vs) : ts.map urlDecode = vs := by
  induction h with
  | nil => rfl
  | cons h _ ih => rw [List.map_cons, urlDecode_encodes h, ih]

/-- C37: a URI made of any parameters (in any order, with unknown ones, percent-encoded in any way) that describe
a connection is accepted and yields that connection. -/
theorem C37_roundtrip {key : Bytes} {ps : List (Bytes × Bytes)} {c : Conn} (hps : Clean ps) (h : Describes key ps c) :
    parseUri (uri key ps) = .ok c := by
  obtain ⟨h1, h2, h3, h4, ⟨t, b, h5, h6, h7, h8⟩, h9⟩ := h
  obtain ⟨k1, k2⟩ := hexDecode_for h1 h2
  have hq : (0x3f : UInt8) ∉ key := by
    intro hm
    have h := (Hex.pairs_iff key c.key (by omega)).2 h1
    have h := (Hex.pairs_some_iff key (by omega)).1 ⟨_, h⟩
    have := h _ hm
    revert this; unfold Hex.Spec.IsHexDigit; decide
  have hps0 : ps ≠ [] := by rintro rfl; simp [values] at h5
  unfold parseUri uri
  have e1 : ((c!"nostr+walletconnect://") ++ key ++ 0x3f :: query ps : Bytes).take scheme.length = scheme := by
    rw [List.append_assoc]; exact List.take_left
  have e2 : ((c!"nostr+walletconnect://") ++ key ++ 0x3f :: query ps : Bytes).drop scheme.length = key ++ 0x3f :: query ps := by
    rw [List.append_assoc]; exact List.drop_left
  rw [e1, e2]
  simp only [ne_eq, not_true_eq_false, if_false, strchr_append hq, k2]
  simp only [k1]
  have e3 : Text.tokens 0x26 (query ps) = ps.map fun p => p.1 ++ 0x3d :: p.2 := by
    unfold query
    apply Text.tokens_join
    intro x hx
    obtain ⟨p, hp, rfl⟩ := List.mem_map.1 hx
    have := hps p hp
    refine ⟨?_, by simp⟩
    simp only [List.mem_append, List.mem_cons, not_or]
    exact ⟨this.2.1, by decide, this.2.2⟩
  have hd := hexDecode_for h7 h8
  rw [e3, params_items ps _ hps (by
    intro u hu
    rw [h5, List.mem_singleton] at hu
    subst hu
    exact ⟨by omega, b, hd.1⟩)]
  obtain ⟨relays, secret, ckey, lud16⟩ := c
  simp only at h6 h4 h9 h3
  subst h6
  simp only [Res.bind_ok, h5, List.foldl_cons, List.foldl_nil, hd.1, List.nil_append, each_decode h3]
  rw [if_neg (by simp [h4])]
  congr 1
  rcases h9 with ⟨g1, g2⟩ | ⟨u, v, g1, g2, g3⟩
  · rw [g1, g2]; rfl
  · rw [g1, g2]; simp only [List.foldl_cons, List.foldl_nil, urlDecode_encodes g3]

/-- A connection with two relays (one percent-encoded), an unknown parameter and an address. -/
example : Describes (Hex.Spec.hexText (List.replicate 32 0xab))
    [(c!"x", c!"y=z"), (c!"relay", c!"wss%3A%2f%2fr"), (c!"secret", Hex.Spec.hexText (List.replicate 32 7)), (c!"relay", c!"w"),
      (c!"lud16", c!"a@b")]
    ⟨[c!"wss://r", c!"w"], some (List.replicate 32 7), List.replicate 32 0xab, some (c!"a@b")⟩ := by
  have pl : ∀ c : UInt8, ∀ t v, c ≠ 0x25 → c ≠ 0x26 → c ≠ 0 → Encodes t v → Encodes (c :: t) (c :: v) :=
    fun c t v => Encodes.plain
  have hx : ∀ (a b x : UInt8) (t v : Bytes), HexFor [a, b] [x] → x ≠ 0 → Encodes t v → Encodes (0x25 :: a :: b :: t) (x :: v) :=
    fun a b x t v => Encodes.pct
  refine ⟨by unfold HexFor; decide +kernel, by decide, ?_, by decide,
    ⟨Hex.Spec.hexText (List.replicate 32 7), List.replicate 32 7, by decide +kernel, rfl, by unfold HexFor; decide +kernel,
      by decide⟩, Or.inr ⟨c!"a@b", c!"a@b", by decide +kernel, rfl, ?_⟩⟩
  · have e : values (c!"relay") [(c!"x", c!"y=z"), (c!"relay", c!"wss%3A%2f%2fr"),
        (c!"secret", Hex.Spec.hexText (List.replicate 32 7)), (c!"relay", c!"w"), (c!"lud16", c!"a@b")] =
        [c!"wss%3A%2f%2fr", c!"w"] := by decide +kernel
    rw [e]
    refine .cons ?_ (.cons ?_ .nil)
    · exact pl _ _ _ (by decide) (by decide) (by decide) (pl _ _ _ (by decide) (by decide) (by decide)
        (pl _ _ _ (by decide) (by decide) (by decide) (hx _ _ 0x3a _ _ (by unfold HexFor; decide +kernel) (by decide)
        (hx _ _ 0x2f _ _ (by unfold HexFor; decide +kernel) (by decide) (hx _ _ 0x2f _ _ (by unfold HexFor; decide +kernel) (by decide)
        (pl _ _ _ (by decide) (by decide) (by decide) .nil))))))
    · exact pl _ _ _ (by decide) (by decide) (by decide) .nil
  · exact pl _ _ _ (by decide) (by decide) (by decide) (pl _ _ _ (by decide) (by decide) (by decide)
      (pl _ _ _ (by decide) (by decide) (by decide) .nil))

theorem hexPair_lax {a b v : UInt8} (h : hexPair a b = some v) : Hex.Spec.IsHexDigit b ∧
    (Hex.Spec.IsHexDigit a ∨ a = 0x20 ∨ (0x09 ≤ a.toNat ∧ a.toNat ≤ 0x0d) ∨ a = 0x2b ∨ a = 0x2d) := by
  unfold hexPair at h
  split at h
  · simp at h
  · rename_i w hw
    refine ⟨by rw [Hex.isHex_iff, hw]; rfl, ?_⟩
    split at h
    · rename_i u hu; left; rw [Hex.isHex_iff, hu]; rfl
    · split at h
      · rename_i h1
        rcases h1 with h1 | h1
        · unfold Hex.isSpace at h1
          simp only [Bool.or_eq_true, beq_iff_eq, Bool.and_eq_true, decide_eq_true_eq, UInt8.le_iff_toNat_le] at h1
          rcases h1 with h1 | h1
          · exact Or.inr (Or.inl h1)
          · exact Or.inr (Or.inr (Or.inl h1))
        · exact Or.inr (Or.inr (Or.inr (Or.inl h1)))
      · split at h
        · rename_i h2; exact Or.inr (Or.inr (Or.inr (Or.inr h2)))
        · simp at h

theorem hexPairs_lax : ∀ (n : Nat) (s bs : Bytes), s.length = 2 * n → hexPairs s = some bs → LaxPairs s ∧ bs.length = n := by
  intro n
  induction n with
  | zero =>
    intro s bs hs h
    have : s = [] := List.length_eq_zero_iff.1 (by omega)
    subst this
    simp only [hexPairs, Option.some.injEq] at h
    subst h
    exact ⟨trivial, rfl⟩
  | succ n ih =>
    intro s bs hs h
    match s, hs with
    | a :: b :: s, hs =>
      simp only [hexPairs] at h
      split at h
      · simp at h
      · rename_i v hv
        obtain ⟨t, ht, rfl⟩ := Option.map_eq_some_iff.1 h
        obtain ⟨h1, h2⟩ := ih s t (by simp at hs; omega) ht
        have := hexPair_lax hv
        exact ⟨⟨this.1, this.2, h1⟩, by simp [h2]⟩

theorem hexDecode_lax {s bs : Bytes} {n : Nat} (h : hexDecode s n = some bs) : s.length = 2 * n ∧ LaxPairs s ∧ bs.length = n := by
  unfold hexDecode at h
  split at h
  · simp at h
  · exact ⟨by omega, hexPairs_lax n s bs (by omega) h⟩

/-- What every step of the parameter loop keeps. -/
theorem params_inv (ts : List Bytes) : ∀ c c1 : Conn, params c ts = .ok c1 →
    c1.key = c.key ∧
    (c1.secret = c.secret ∨ ∃ t b, ((c!"secret=") ++ t : Bytes) ∈ ts ∧ t.length = 64 ∧ LaxPairs t ∧ b.length = 32 ∧ c1.secret = some b) ∧
    ∀ r ∈ c1.relays, r ∈ c.relays ∨ ∃ t, ((c!"relay=") ++ t : Bytes) ∈ ts ∧ r = urlDecode t := by
  induction ts with
  | nil =>
    intro c c1 h
    simp only [params, Res.ok.injEq] at h
    subst h
    exact ⟨rfl, Or.inl rfl, fun r hr => Or.inl hr⟩
  | cons p ts ih =>
    intro c c1 h
    simp only [params] at h
    obtain ⟨c2, h1, h2⟩ := Res.bind_eq_ok.1 h
    obtain ⟨i1, i2, i3⟩ := ih c2 c1 h2
    have key : c2.key = c.key ∧
        (c2.secret = c.secret ∨ ∃ t b, p = (c!"secret=") ++ t ∧ t.length = 64 ∧ LaxPairs t ∧ b.length = 32 ∧ c2.secret = some b) ∧
        ∀ r ∈ c2.relays, r ∈ c.relays ∨ ∃ t, p = (c!"relay=") ++ t ∧ r = urlDecode t := by
      unfold param at h1
      split at h1
      · simp only [Res.ok.injEq] at h1; subst h1; exact ⟨rfl, Or.inl rfl, fun r hr => Or.inl hr⟩
      rename_i name value hs
      obtain ⟨hp, -⟩ := strchr_iff.1 hs
      split at h1
      · rename_i hn
        subst hn
        simp only [Res.ok.injEq] at h1
        subst h1
        refine ⟨rfl, Or.inl rfl, fun r hr => ?_⟩
        simp only [List.mem_append, List.mem_singleton] at hr
        rcases hr with hr | hr
        · exact Or.inl hr
        · exact Or.inr ⟨value, hp, hr⟩
      split at h1
      · rename_i hn
        subst hn
        split at h1
        · simp at h1
        · rename_i hl
          split at h1
          · simp at h1
          · rename_i b hb
            simp only [Res.ok.injEq] at h1
            subst h1
            have := hexDecode_lax hb
            exact ⟨rfl, Or.inr ⟨value, b, hp, by omega, this.2.1, this.2.2, rfl⟩, fun r hr => Or.inl hr⟩
      split at h1
      · simp only [Res.ok.injEq] at h1; subst h1; exact ⟨rfl, Or.inl rfl, fun r hr => Or.inl hr⟩
      · simp only [Res.ok.injEq] at h1; subst h1; exact ⟨rfl, Or.inl rfl, fun r hr => Or.inl hr⟩
    obtain ⟨k1, k2, k3⟩ := key
    refine ⟨i1.trans k1, ?_, ?_⟩
    · rcases i2 with i2 | ⟨t, b, m, rest⟩
      · rcases k2 with k2 | ⟨t, b, m, rest⟩
        · left; rw [i2, k2]
        · right; exact ⟨t, b, by rw [m]; simp, rest.1, rest.2.1, rest.2.2.1, by rw [i2]; exact rest.2.2.2⟩
      · right; exact ⟨t, b, List.mem_cons_of_mem _ m, rest⟩
    · intro r hr
      rcases i3 r hr with h | ⟨t, m, e⟩
      · rcases k3 r h with h | ⟨t, m, e⟩
        · exact Or.inl h
        · exact Or.inr ⟨t, by rw [m]; simp, e⟩
      · exact Or.inr ⟨t, List.mem_cons_of_mem _ m, e⟩

/-- C37: an accepted URI has the scheme, 64 characters for the key and for some `secret` parameter, each read in
pairs, and at least one relay; every relay comes from a `relay` parameter. Missing for the full claim: the 64
characters need not be hex digits (`C37_lax_refuted`). -/
theorem C37_only_partial {u : Bytes} {c : Conn} (h : parseUri u = .ok c) :
    ∃ key q, u = c!"nostr+walletconnect://" ++ key ++ 0x3f :: q ∧ key.length = 64 ∧ LaxPairs key ∧ c.key.length = 32 ∧
      (∃ t b, ((c!"secret=") ++ t : Bytes) ∈ Text.split 0x26 q ∧ t.length = 64 ∧ LaxPairs t ∧ c.secret = some b ∧ b.length = 32) ∧
      c.relays ≠ [] ∧ ∀ r ∈ c.relays, ∃ t, ((c!"relay=") ++ t : Bytes) ∈ Text.split 0x26 q ∧ r = urlDecode t := by
  unfold parseUri at h
  split at h
  · simp at h
  rename_i hsch
  split at h
  · simp at h
  rename_i k q hk
  split at h
  · simp at h
  rename_i hl
  split at h
  · simp at h
  rename_i key hd
  obtain ⟨c1, h1, h2⟩ := Res.bind_eq_ok.1 h
  split at h2
  · simp at h2
  rename_i hne
  simp only [Res.ok.injEq] at h2
  subst h2
  obtain ⟨i1, i2, i3⟩ := params_inv _ _ _ h1
  obtain ⟨e, -⟩ := strchr_iff.1 hk
  have hx := hexDecode_lax hd
  have tok : ∀ {x : Bytes}, x ∈ Text.tokens 0x26 q → x ∈ Text.split 0x26 q := fun hx => (List.mem_filter.1 hx).1
  refine ⟨k, q, ?_, by omega, hx.2.1, by rw [i1]; exact hx.2.2, ?_, fun hr => hne (Or.inr hr), ?_⟩
  · rw [List.append_assoc, ← e]
    have := List.take_append_drop scheme.length u
    rw [Decidable.not_not.1 hsch] at this
    exact this.symm
  · rcases i2 with i2 | ⟨t, b, m, g1, g2, g3, g4⟩
    · exact absurd (Or.inl i2) hne
    · exact ⟨t, b, tok m, g1, g2, g4, g3⟩
  · intro r hr
    rcases i3 r hr with h | ⟨t, m, e⟩
    · simp at h
    · exact ⟨t, tok m, e⟩

/-- C37 fails: a key that contains a sign is accepted (and read as another key). -/
theorem C37_lax_refuted : ∃ key c, key.length = 64 ∧ (∃ x ∈ key, ¬ Hex.Spec.IsHexDigit x) ∧
    parseUri (uri key [(c!"relay", c!"w"), (c!"secret", Hex.Spec.hexText (List.replicate 32 7))]) = .ok c := by
  refine ⟨c!"+f" ++ Hex.Spec.hexText (List.replicate 31 0xab), ⟨[c!"w"], some (List.replicate 32 7), 0x0f :: List.replicate 31 0xab, none⟩,
    by decide, ⟨0x2b, by decide, by unfold Hex.Spec.IsHexDigit; decide⟩, by decide +kernel⟩

end Nostr.Nip47.Props
