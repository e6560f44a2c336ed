import Verif.Nip18.Model
import Verif.Nip18.Spec
import Verif.Nip51.Lemmas
import Verif.Nip10.Props
import Verif.Nip21.Props
import Verif.Hex.Lemmas

/-! # Property theorems: C53, C107 -/

namespace Nostr.Nip18.Props
open Nostr Nostr.Nip18 Nostr.Event Spec
open Nostr.Nip10.Props (addTag_ok addTag_noub)

/-! ## C53 -/

theorem kindOf_dec {n : Nat} (h : n ≤ 65535) : kindOf (Num.decNat n) = some n := by
  have := Num.scanDec_decNat (n := n) (rest := []) (by simp)
  rw [List.append_nil] at this
  unfold kindOf
  rw [this]
  simp only [Bool.false_eq_true, if_false]
  rw [if_neg (by omega), if_pos h]

theorem copy_fits {n : Nat} {s : Bytes} (h : s.length < n) : copyStr n (some s) = s := by
  unfold copyStr
  exact List.take_of_length_le (by simp; omega)

theorem hex64_len {s : Bytes} (h : ¬ (Nip51.hex64 s = false)) : s.length = 64 :=
  ((Nip51.hex64_iff s).1 (by simpa using h)).1

/-- The tags of a created repost. -/
def madeTags (id pk relay : Bytes) (kind : Nat) (d : Option Bytes) : List (List Bytes) :=
  [[c!"e", id, relay], [c!"p", pk]] ++ (if kind = 1 then [] else [[c!"k", Num.decNat kind]]) ++
    (match d with | none => [] | some d => [[c!"a", Num.decNat kind ++ c!":" ++ pk ++ c!":" ++ d]])

/-- What a created repost looks like. -/
theorem create_ok {cfg : Option Config.Config} {now : Int} {id pk relay : Bytes} {kind : Nat} {d json : Option Bytes} {e : Event}
    (h : repostCreate cfg now id pk relay kind d json = .ok e) :
    Hex64 id ∧ Hex64 pk ∧
    e = ⟨zero.id, zero.pubkey, now, if kind = 1 then 6 else 16, madeTags id pk relay kind d, some (json.getD []), zero.sig⟩ := by
  unfold repostCreate at h
  split at h
  · cases h
  rename_i hh
  rw [not_or] at hh
  obtain ⟨e1, h1, k1⟩ := Res.bind_eq_ok.1 h
  obtain ⟨e2, h2, k2⟩ := Res.bind_eq_ok.1 k1
  obtain ⟨e3, h3, k3⟩ := Res.bind_eq_ok.1 k2
  have g1 := addTag_ok h1
  have g2 := addTag_ok h2
  refine ⟨(Nip51.hex64_iff id).1 (by simpa using hh.1), (Nip51.hex64_iff pk).1 (by simpa using hh.2), ?_⟩
  by_cases hk : kind = 1
  · simp only [hk, if_true] at h3 k3 ⊢
    rw [if_neg (by decide)] at h3
    simp only [Res.ok.injEq] at h3
    cases d with
    | none => simp only [Res.ok.injEq] at k3; subst k3; subst h3; subst g2; subst g1; simp [hk, zero, madeTags]
    | some d => simp only at k3; have g3 := addTag_ok k3; subst g3; subst h3; subst g2; subst g1; simp [hk, zero, madeTags]
  · simp only [hk, if_false, if_true] at h3 k3 ⊢
    have g3 := addTag_ok h3
    cases d with
    | none => simp only [Res.ok.injEq] at k3; subst k3; subst g3; subst g2; subst g1; simp [hk, zero, madeTags]
    | some d => simp only at k3; have g4 := addTag_ok k3; subst g4; subst g3; subst g2; subst g1; simp [hk, zero, madeTags]

/-- **C53** (round trip): a created repost parses back to the id, author, relay hint and kind it was made
from, for buffers that can hold them; it is of kind 6 exactly for kind-1 events, otherwise of kind 16, and
carries the given content. -/
theorem C53_roundtrip (cfg : Option Config.Config) (now : Int) (id pk relay : Bytes) (kind : Nat) (d json : Option Bytes) (e : Event)
    (hk : kind ≤ 65535) (h : repostCreate cfg now id pk relay kind d json = .ok e) :
    (e.kind = 6 ↔ kind = 1) ∧ (e.kind = 16 ↔ kind ≠ 1) ∧ e.content = some (json.getD []) ∧ e.createdAt = now ∧
    (∀ n m r, 65 ≤ n → 65 ≤ m → relay.length < r → repostParse e n m r = .ok (id, pk, relay, kind)) ∧
    (∀ x ∈ d, [c!"a", Num.decNat kind ++ c!":" ++ pk ++ c!":" ++ x] ∈ e.tags) := by
  obtain ⟨hi, hp, rfl⟩ := create_ok h
  have li := hi.1
  have lp := hp.1
  refine ⟨?_, ?_, rfl, rfl, ?_, ?_⟩
  · by_cases hk1 : kind = 1 <;> simp [hk1]
  · by_cases hk1 : kind = 1 <;> simp [hk1]
  · intro n m r hn hm hr
    by_cases hk1 : kind = 1
    · unfold repostParse
      simp only [hk1, if_true, List.append_nil]
      rw [if_neg (by decide)]
      cases d with
      | none => simp [madeTags, scanTag, hk1, copy_fits (show id.length < n by omega), copy_fits (show pk.length < m by omega), copy_fits hr]
      | some d => simp [madeTags, scanTag, hk1, copy_fits (show id.length < n by omega), copy_fits (show pk.length < m by omega), copy_fits hr]
    · unfold repostParse
      simp only [hk1, if_false]
      rw [if_neg (by decide)]
      cases d with
      | none => simp [madeTags, scanTag, hk1, kindOf_dec hk, copy_fits (show id.length < n by omega), copy_fits (show pk.length < m by omega), copy_fits hr]
      | some d => simp [madeTags, scanTag, hk1, kindOf_dec hk, copy_fits (show id.length < n by omega), copy_fits (show pk.length < m by omega), copy_fits hr]
  · intro x hx
    cases d with
    | none => simp at hx
    | some y => obtain rfl : y = x := by simpa using hx
                simp [madeTags]

/-- **C53** (creation): it succeeds for every pair of hex ids when at least four tags are allowed, and fails
for anything that is not 64 hex digits. -/
theorem C53_create (cfg : Option Config.Config) (now : Int) (id pk relay : Bytes) (kind : Nat) (d json : Option Bytes)
    (hc : ∀ c ∈ cfg, 4 ≤ c.maxTags) :
    (∃ e, repostCreate cfg now id pk relay kind d json = .ok e) ↔ Hex64 id ∧ Hex64 pk := by
  constructor
  · rintro ⟨e, h⟩
    obtain ⟨h1, h2, _⟩ := create_ok h
    exact ⟨h1, h2⟩
  · rintro ⟨h1, h2⟩
    have ok : ∀ (e1 : Event) (v : List Bytes), v ≠ [] → e1.tags.length < 4 →
        addTag cfg e1 v = .ok { e1 with tags := e1.tags ++ [v] } := by
      intro e1 v hv hl
      unfold addTag
      rw [if_neg hv]
      cases cfg with
      | none => rfl
      | some c =>
        have := hc c rfl
        simp only [Option.any_some, decide_eq_true_eq]
        rw [if_neg (by omega)]
    have g1 := (Nip51.hex64_iff id).2 h1
    have g2 := (Nip51.hex64_iff pk).2 h2
    unfold repostCreate
    rw [if_neg (by simp [g1, g2])]
    simp only
    rw [ok _ _ (by simp) (by simp [zero]), Res.bind_ok, ok _ _ (by simp) (by simp [zero]), Res.bind_ok]
    by_cases hk : kind = 1
    · simp only [hk, if_true]
      rw [if_neg (by decide), Res.bind_ok]
      cases d with
      | none => exact ⟨_, rfl⟩
      | some d => exact ⟨_, ok _ _ (by simp) (by simp [zero])⟩
    · simp only [hk, if_false, if_true]
      rw [ok _ _ (by simp) (by simp [zero]), Res.bind_ok]
      cases d with
      | none => exact ⟨_, rfl⟩
      | some d => exact ⟨_, ok _ _ (by simp) (by simp [zero])⟩

theorem scan_other {t : List Bytes} (h : ¬ IsE t) (f : Found) : (scanTag f t).id = f.id ∧ (scanTag f t).relay = f.relay := by
  unfold scanTag
  split
  · rename_i name value rest
    rw [if_neg (fun hn => h ⟨value, rest, by rw [hn]⟩)]
    split
    · simp
    · split <;> simp
  · simp

theorem scan_others {ts : List (List Bytes)} (h : ∀ t ∈ ts, ¬ IsE t) (f : Found) :
    (ts.foldl scanTag f).id = f.id ∧ (ts.foldl scanTag f).relay = f.relay := by
  induction ts generalizing f with
  | nil => exact ⟨rfl, rfl⟩
  | cons t ts ih =>
    have h1 := scan_other (h t (by simp)) f
    have h2 := ih (fun x hx => h x (by simp [hx])) (scanTag f t)
    rw [List.foldl_cons]
    exact ⟨h2.1.trans h1.1, h2.2.trans h1.2⟩

/-- **C53** (any event of a repost kind): the reported id is the one of the last event reference; when that
reference has a relay hint, it is the reported one. Missing: a last reference without hint gets the hint
of an earlier one (`C53_hint_refuted`). -/
theorem C53_last_partial (e : Event) (hk : e.kind = 6 ∨ e.kind = 16) (pre post : List (List Bytes)) (id : Bytes) (rest : List Bytes)
    (ht : e.tags = pre ++ (c!"e" :: id :: rest) :: post) (hno : ∀ t ∈ post, ¬ IsE t) (n m r : Nat) (hn : id.length < n) :
    ∃ pk relay kind, repostParse e n m r = .ok (id, pk, relay, kind) ∧
      (∀ hint, rest.head? = some hint → hint.length < r → relay = hint) := by
  unfold repostParse
  rw [if_neg (by rcases hk with h | h <;> simp [h])]
  simp only
  rw [ht, List.foldl_append, List.foldl_cons]
  generalize hf : pre.foldl scanTag _ = f
  have h0 := scan_others hno (scanTag f (c!"e" :: id :: rest))
  generalize hg : post.foldl scanTag (scanTag f (c!"e" :: id :: rest)) = g at h0 ⊢
  have hid : g.id = some id := by rw [h0.1]; simp [scanTag]
  have hrl : g.relay = rest.head?.or f.relay := by rw [h0.2]; simp [scanTag]
  rw [hid]
  simp only [Option.isSome_some, if_true]
  refine ⟨_, _, _, by rw [copy_fits hn], ?_⟩
  intro hint hh hl
  rw [hrl, hh, Option.some_or]
  exact copy_fits hl

/-- **C53** (errors): other kinds are refused; a repost without event reference is reported as such. -/
theorem C53_errors (e : Event) (n m r : Nat) :
    (e.kind ≠ 6 ∧ e.kind ≠ 16 → repostParse e n m r = .err .invalidEvent) ∧
    ((e.kind = 6 ∨ e.kind = 16) → (∀ t ∈ e.tags, ¬ IsE t) → repostParse e n m r = .err .notFound) := by
  constructor
  · intro h
    unfold repostParse
    rw [if_pos h]
  · intro hk hno
    unfold repostParse
    rw [if_neg (by rcases hk with h | h <;> simp [h])]
    simp only
    have := (scan_others hno ⟨none, none, none, if e.kind = 6 then 1 else 0⟩).1
    rw [this]
    rfl

/-- **C53, refuted** for the hint: a relay hint of another reference is reported with the id of the last
one, which has none. -/
theorem C53_hint_refuted : ∃ e : Event, e.kind = 6 ∧ e.tags = [[c!"e", c!"first", c!"wss://one"], [c!"e", c!"second"]] ∧
    repostParse e 65 65 256 = .ok (c!"second", [], c!"wss://one", 1) :=
  ⟨{ zero with kind := 6, tags := [[c!"e", c!"first", c!"wss://one"], [c!"e", c!"second"]] }, rfl, rfl, by decide +kernel⟩

example : ∃ e, repostCreate none 5 (List.replicate 64 0x61) (List.replicate 64 0x62) (c!"wss://r") 30023 (some (c!"d")) none = .ok e ∧
    repostParse e 65 65 100 = .ok (List.replicate 64 0x61, List.replicate 64 0x62, c!"wss://r", 30023) := by
  obtain ⟨e, he⟩ := (C53_create none 5 (List.replicate 64 0x61) (List.replicate 64 0x62) (c!"wss://r") 30023 (some (c!"d")) none (by simp)).2
    ⟨⟨by decide, fun c hc => by rw [List.eq_of_mem_replicate hc]; unfold Hex.Spec.IsHexDigit; decide⟩,
     ⟨by decide, fun c hc => by rw [List.eq_of_mem_replicate hc]; unfold Hex.Spec.IsHexDigit; decide⟩⟩
  exact ⟨e, he, (C53_roundtrip _ _ _ _ _ _ _ _ _ (by decide) he).2.2.2.2.1 65 65 100 (by decide) (by decide) (by decide)⟩

/-! ## C107 -/

/-- A quote starts here. -/
def Start (s : Bytes) : Prop := c!"nostr:note1" <+: s ∨ c!"nostr:nevent1" <+: s ∨ c!"nostr:naddr1" <+: s

instance (s : Bytes) : Decidable (Start s) := by unfold Start; infer_instance

theorem bech_eq : isBech = fun x => (decide (0x61 ≤ x.toNat) && decide (x.toNat ≤ 0x7a)) || (decide (0x30 ≤ x.toNat) && decide (x.toNat ≤ 0x39)) := by
  funext x
  simp [isBech, UInt8.le_iff_toNat_le]

theorem start_iff (s : Bytes) : Start s ↔ (c!"nostr:").isPrefixOf s = true ∧ kindPrefix (s.drop 6) = true := by
  have key : ∀ k : Bytes, (c!"nostr:" ++ k) <+: s ↔ (c!"nostr:") <+: s ∧ k <+: s.drop 6 := by
    intro k
    constructor
    · rintro ⟨t, rfl⟩
      exact ⟨⟨k ++ t, by simp⟩, ⟨t, by simp⟩⟩
    · rintro ⟨⟨t, rfl⟩, ⟨u, hu⟩⟩
      refine ⟨u, ?_⟩
      have : t = k ++ u := by rw [hu]; simp
      rw [this]; simp
  unfold Start kindPrefix
  have k1 := key (c!"note1")
  have k2 := key (c!"nevent1")
  have k3 := key (c!"naddr1")
  simp only [List.cons_append, List.nil_append] at k1 k2 k3
  rw [k1, k2, k3]
  simp only [List.isPrefixOf_iff_prefix, Bool.or_eq_true]
  constructor
  · rintro (h | h | h) <;> simp [h.1, h.2]
  · rintro ⟨h0, (h | h) | h⟩ <;> simp [h0, h]

theorem start_head {c : UInt8} {s : Bytes} (h : Start (c :: s)) : c = 0x6e ∧ s.head? = some 0x6f := by
  rcases h with ⟨t, h⟩ | ⟨t, h⟩ | ⟨t, h⟩ <;>
  · simp only [List.cons_append, List.cons.injEq] at h
    exact ⟨h.1.symm, by rw [← h.2]; rfl⟩

/-- The quote at a starting place. -/
def uriAt (s : Bytes) : Bytes := c!"nostr:" ++ (s.drop 6).takeWhile isBech

theorem uris_start {s : Bytes} (h : Start s) : uris s = uriAt s :: uris (s.drop 1) := by
  cases s with
  | nil => rcases h with ⟨t, h⟩ | ⟨t, h⟩ | ⟨t, h⟩ <;> simp at h
  | cons c s =>
    show (if Start (c :: s) then _ else _) = _
    rw [if_pos h, uriAt, bech_eq]
    rfl

theorem uris_skip {c : UInt8} {s : Bytes} (h : ¬ Start (c :: s)) : uris (c :: s) = uris s := by
  show (if Start (c :: s) then _ else _) = _
  rw [if_neg h]

theorem findUri_spec : ∀ (fuel : Nat) (s : Bytes), s.length ≤ fuel →
    (findUri fuel s = none → uris s = []) ∧
    (∀ p, findUri fuel s = some p → Start p ∧ uris s = uris p ∧ p.length ≤ s.length) := by
  intro fuel
  induction fuel with
  | zero =>
    intro s hs
    have : s = [] := List.length_eq_zero_iff.1 (by omega)
    subst this
    exact ⟨fun _ => rfl, fun p h => by simp [findUri] at h⟩
  | succ fuel ih =>
    intro s hs
    cases s with
    | nil => exact ⟨fun _ => rfl, fun p h => by simp [findUri] at h⟩
    | cons c s =>
      simp only [List.length_cons] at hs
      by_cases hst : Start (c :: s)
      · obtain ⟨h1, h2⟩ := (start_iff _).1 hst
        have hf : findUri (fuel + 1) (c :: s) = some (c :: s) := by
          rw [findUri, if_pos h1, if_pos h2]
        rw [hf]
        refine ⟨fun h => (by simp at h), fun p h => ?_⟩
        simp only [Option.some.injEq] at h
        subst h
        exact ⟨hst, rfl, by omega⟩
      · by_cases hp : (c!"nostr:").isPrefixOf (c :: s) = true
        · have hk : ¬ kindPrefix ((c :: s).drop 6) = true := fun h => hst ((start_iff _).2 ⟨hp, h⟩)
          have hf : findUri (fuel + 1) (c :: s) = findUri fuel ((c :: s).drop 6) := by
            rw [findUri, if_pos hp, if_neg hk]
          obtain ⟨t, ht⟩ := List.isPrefixOf_iff_prefix.1 hp
          have hd : (c :: s).drop 6 = t := by rw [← ht]; rfl
          have hu : uris (c :: s) = uris t := by
            rw [uris_skip hst]
            simp only [List.cons_append, List.nil_append, List.cons.injEq] at ht
            rw [← ht.2]
            rw [uris_skip (fun h => absurd (start_head h).1 (by decide)), uris_skip (fun h => absurd (start_head h).1 (by decide)),
              uris_skip (fun h => absurd (start_head h).1 (by decide)), uris_skip (fun h => absurd (start_head h).1 (by decide)),
              uris_skip (fun h => absurd (start_head h).1 (by decide))]
          have hl : t.length ≤ s.length := by
            have := congrArg List.length ht
            simp only [List.length_append, List.length_cons, List.length_nil] at this
            omega
          rw [hf, hd, hu]
          obtain ⟨i1, i2⟩ := ih t (by omega)
          exact ⟨i1, fun p h => ⟨(i2 p h).1, (i2 p h).2.1, by have := (i2 p h).2.2; simp only [List.length_cons]; omega⟩⟩
        · have hf : findUri (fuel + 1) (c :: s) = findUri fuel s := by rw [findUri, if_neg hp]
          rw [hf, uris_skip hst]
          obtain ⟨i1, i2⟩ := ih s (by omega)
          exact ⟨i1, fun p h => ⟨(i2 p h).1, (i2 p h).2.1, by have := (i2 p h).2.2; simp only [List.length_cons]; omega⟩⟩

theorem take_run (t : Bytes) : t.take (t.takeWhile isBech).length = t.takeWhile isBech := by
  induction t with
  | nil => rfl
  | cons c t ih => rw [List.takeWhile_cons]; split <;> simp [ih]

theorem take_uri {s : Bytes} (h : Start s) : s.take (uriLen s) = uriAt s := by
  obtain ⟨h1, _⟩ := (start_iff s).1 h
  obtain ⟨t, rfl⟩ := List.isPrefixOf_iff_prefix.1 h1
  unfold uriLen uriAt
  have hd : (c!"nostr:" ++ t).drop 6 = t := rfl
  rw [hd]
  show (c!"nostr:" ++ t).take ((c!"nostr:").length + _) = _
  rw [List.take_length_add_append]
  congr 1
  exact take_run t

/-- An accepted text ends in at least six symbols, none of which is the letter o. -/
def SymTail (b : Bytes) : Prop := ∃ h x, b = h ++ x ∧ 6 ≤ x.length ∧ (0x6f : UInt8) ∉ x

theorem charset_o : ∀ n < 32, Bech32.charsetAt (UInt8.ofNat n) ≠ 0x6f := by decide +kernel

theorem map_o {vs : Bytes} (h : Fits 5 vs) : (0x6f : UInt8) ∉ vs.map Bech32.charsetAt := by
  intro hm
  obtain ⟨v, hv, hc⟩ := List.mem_map.1 hm
  have := charset_o v.toNat (h v hv)
  rw [UInt8.ofNat_toNat] at this
  exact this hc

theorem text_tail {hrp : Bytes} (h : hrp.length ≤ 41) (d : Bytes) : SymTail (Nip21.text hrp d) := by
  obtain ⟨_, h2, h3, _⟩ := Nip21.ck_spec h d
  refine ⟨hrp ++ c!"1" ++ (Nip21.conv d).map Bech32.charsetAt, (Nip21.ck hrp d).map Bech32.charsetAt, ?_, by simp [h2], map_o h3⟩
  simp [Nip21.text]

theorem note_tail {junk b id : Bytes} (h : Bech32.eventIdFromBech32 junk b = .ok id) : SymTail b := by
  obtain ⟨h1, h2⟩ := (Bech32.fixedFrom_iff junk (c!"note") b id (by decide)).1 h
  obtain ⟨ck, _, c2, c3, c4, _⟩ := Bech32.encode32_ok (pre := c!"note") (by decide) h1
  rw [c4] at h2
  simp only [Res.ok.injEq] at h2
  exact ⟨_, _, h2.symm, by simp [c2], map_o c3⟩

theorem map_ok {α β : Type} {f : α → β} {r : Res α} {b : β} (h : f <$> r = .ok b) : ∃ a, r = .ok a ∧ f a = b := by
  cases r with
  | ok a => exact ⟨a, rfl, by simpa using h⟩
  | err e => simp at h
  | ub => simp at h

theorem tail_of_decode {α : Type} {s h : Bytes} {n : Nat} {k : Bytes → Res α} {x : α} (hh : h.length ≤ 41)
    (hk : (Nip21.decodeBytes s h n >>= k) = .ok x) : SymTail s := by
  obtain ⟨d, hd, _⟩ := Res.bind_eq_ok.1 hk
  obtain ⟨_, _, e⟩ := (Nip21.decodeBytes_iff hh s d n).1 hd
  rw [e]
  exact text_tail hh d

theorem kind_cases {b : Bytes} (h : kindPrefix b = true) (junk : Bytes) :
    (∃ t, b = c!"note1" ++ t ∧ Nip21.uriParse junk (c!"nostr:" ++ b) = Nip21.Uri.note <$> Bech32.eventIdFromBech32 junk b) ∨
    (∃ t, b = c!"nevent1" ++ t ∧ Nip21.uriParse junk (c!"nostr:" ++ b) = Nip21.Uri.nevent <$> Nip21.neventDecode b) ∨
    (∃ t, b = c!"naddr1" ++ t ∧ Nip21.uriParse junk (c!"nostr:" ++ b) = Nip21.Uri.naddr <$> Nip21.naddrDecode b) := by
  unfold kindPrefix at h
  simp only [List.isPrefixOf_iff_prefix, Bool.or_eq_true] at h
  rcases h with (⟨t, rfl⟩ | ⟨t, rfl⟩) | ⟨t, rfl⟩
  · exact .inl ⟨t, rfl, rfl⟩
  · exact .inr (.inl ⟨t, rfl, rfl⟩)
  · refine .inr (.inr ⟨t, rfl, ?_⟩)
    unfold Nip21.uriParse
    rw [if_neg (by simp)]
    have e1 : List.drop 6 (c!"nostr:" ++ (c!"naddr1" ++ t)) = c!"naddr1" ++ t := rfl
    simp only [e1]
    have e2 : (c!"naddr1" ++ t).take 9 ≠ c!"nprofile1" := by
      intro h
      have := congrArg (List.take 2) h
      revert this
      simp
    have e3 : (c!"naddr1" ++ t).take 7 ≠ c!"nevent1" := by
      intro h
      have := congrArg (List.take 2) h
      revert this
      simp
    rw [if_neg (by simp), if_neg (by simp), if_neg (by simp), if_neg e2, if_neg e3, if_pos (by simp)]

theorem kind_run {s : Bytes} (h : kindPrefix s = true) : kindPrefix (s.takeWhile isBech) = true := by
  unfold kindPrefix at h ⊢
  simp only [List.isPrefixOf_iff_prefix, Bool.or_eq_true] at h ⊢
  rcases h with (⟨t, rfl⟩ | ⟨t, rfl⟩) | ⟨t, rfl⟩
  · exact .inl (.inl ⟨t.takeWhile isBech, by rw [List.takeWhile_append_of_pos (by decide)]⟩)
  · exact .inl (.inr ⟨t.takeWhile isBech, by rw [List.takeWhile_append_of_pos (by decide)]⟩)
  · exact .inr ⟨t.takeWhile isBech, by rw [List.takeWhile_append_of_pos (by decide)]⟩

theorem parse_tail {s junk : Bytes} {u : Nip21.Uri} (h : kindPrefix s = true)
    (hp : Nip21.uriParse junk (c!"nostr:" ++ s.takeWhile isBech) = .ok u) : SymTail (s.takeWhile isBech) := by
  rcases kind_cases (kind_run h) junk with ⟨t, _, e⟩ | ⟨t, _, e⟩ | ⟨t, _, e⟩ <;> rw [e] at hp
  · obtain ⟨a, ha, _⟩ := map_ok hp
    exact note_tail ha
  · obtain ⟨a, ha, _⟩ := map_ok hp
    exact tail_of_decode (by decide) ha
  · obtain ⟨a, ha, _⟩ := map_ok hp
    exact tail_of_decode (by decide) ha

/-- Inside the run of a quote no other quote starts, unless the run ends in the letters `nostr`. -/
theorem uris_run {a r : Bytes} (ha : ∀ c ∈ a, isBech c = true) (hr : ∀ c, r.head? = some c → isBech c = false)
    (hn : ∀ x, a ≠ x ++ c!"nostr") : uris (a ++ r) = uris r := by
  induction a with
  | nil => rfl
  | cons c a ih =>
    rw [List.cons_append, uris_skip, ih (fun d hd => ha d (by simp [hd])) (fun x hx => hn (c :: x) (by rw [hx]; rfl))]
    intro hs
    obtain ⟨h1, _⟩ := (start_iff _).1 hs
    obtain ⟨t, ht⟩ := List.isPrefixOf_iff_prefix.1 h1
    have e : c!"nostr" ++ (0x3a :: t) = (c :: a) ++ r := by simpa using ht
    obtain ⟨h3, _⟩ := Num.split_eq (p := isBech) (by decide) ha (by intro c hc; simp at hc; subst hc; decide) hr e
    exact hn [] (by rw [← h3]; rfl)

theorem uris_after {p junk : Bytes} {u : Nip21.Uri} (h : Start p) (hp : Nip21.uriParse junk (uriAt p) = .ok u) :
    uris (p.drop 1) = uris (p.drop (uriLen p)) := by
  obtain ⟨h1, h2⟩ := (start_iff p).1 h
  obtain ⟨t, rfl⟩ := List.isPrefixOf_iff_prefix.1 h1
  have hd : (c!"nostr:" ++ t).drop 6 = t := rfl
  rw [hd] at h2
  unfold uriAt at hp
  rw [hd] at hp
  have hl : uriLen (c!"nostr:" ++ t) = 6 + (t.takeWhile isBech).length := by unfold uriLen; rw [hd]
  have e1 : (c!"nostr:" ++ t).drop (uriLen (c!"nostr:" ++ t)) = t.dropWhile isBech := by
    rw [hl, ← List.drop_drop, hd]
    have := List.takeWhile_append_dropWhile (p := isBech) (l := t)
    conv => lhs; rw [← this]
    rw [List.takeWhile_append_dropWhile, ← this, List.drop_left' (by rw [this])]
    rw [this]
  rw [e1]
  have e2 : (c!"nostr:" ++ t).drop 1 = 0x6f :: 0x73 :: 0x74 :: 0x72 :: 0x3a :: t := rfl
  rw [e2]
  rw [uris_skip (fun h => absurd (start_head h).1 (by decide)), uris_skip (fun h => absurd (start_head h).1 (by decide)),
    uris_skip (fun h => absurd (start_head h).1 (by decide)), uris_skip (fun h => absurd (start_head h).1 (by decide)),
    uris_skip (fun h => absurd (start_head h).1 (by decide))]
  obtain ⟨x, y, hxy, hy6, hyo⟩ := parse_tail h2 hp
  conv => lhs; rw [← List.takeWhile_append_dropWhile (p := isBech) (l := t)]
  apply uris_run
  · intro c hc
    exact List.all_eq_true.1 List.all_takeWhile c hc
  · intro c hc
    have := List.head?_dropWhile_not isBech t
    rw [hc] at this
    simpa using this
  · intro z hz
    rw [hxy] at hz
    apply hyo
    have h5 : (x ++ y).drop ((x ++ y).length - 5) = c!"nostr" := by rw [hz]; simp
    have h6 : (x ++ y).drop ((x ++ y).length - 5) = y.drop (y.length - 5) := by
      rw [List.length_append, show x.length + y.length - 5 = x.length + (y.length - 5) by omega, ← List.drop_drop, List.drop_left]
    rw [h6] at h5
    have : (0x6f : UInt8) ∈ y.drop (y.length - 5) := by rw [h5]; decide
    exact List.mem_of_mem_drop this

/-- Parsing does not depend on what was on the stack. -/
theorem parse_junk {j1 j2 : Bytes} {b : Bytes} {u : Nip21.Uri} (hk : kindPrefix b = true)
    (h : Nip21.uriParse j1 (c!"nostr:" ++ b) = .ok u) : Nip21.uriParse j2 (c!"nostr:" ++ b) = .ok u := by
  rcases kind_cases hk j1 with ⟨t, ht, e⟩ | ⟨t, ht, e⟩ | ⟨t, ht, e⟩ <;>
  rcases kind_cases hk j2 with ⟨t2, ht2, e2⟩ | ⟨t2, ht2, e2⟩ | ⟨t2, ht2, e2⟩ <;>
  first
  | (exfalso; rw [ht] at ht2; simp at ht2; done)
  | (rw [e] at h; rw [e2]; exact h)
  | (rw [e] at h; rw [e2]
     obtain ⟨a, ha, rfl⟩ := map_ok h
     have := (Bech32.fixedFrom_iff j1 (c!"note") b a (by decide)).1 ha
     rw [show Bech32.eventIdFromBech32 j2 b = .ok a from (Bech32.fixedFrom_iff j2 (c!"note") b a (by decide)).2 this]
     rfl)

theorem start_uri {p : Bytes} (h : Start p) : kindPrefix ((p.drop 6).takeWhile isBech) = true :=
  kind_run ((start_iff p).1 h).2

/-! ### The tag of an address is not cut off -/

theorem record_author {a : Nip21.TlvArgs} {data : Bytes} {ty : UInt8} {pos len : Nat} {st st' : Nip21.Tlv}
    (h : Nip21.record a data ty pos len st = .ok st') (h0 : ∀ x ∈ st.author, x.length = 32) : ∀ x ∈ st'.author, x.length = 32 := by
  unfold Nip21.record at h
  split at h
  · split at h
    · cases h
    · obtain ⟨v, _, k⟩ := Res.bind_eq_ok.1 h
      simp only [Res.ok.injEq] at k
      subst k; exact h0
  · split at h
    · split at h
      · obtain ⟨v, _, k⟩ := Res.bind_eq_ok.1 h
        split at k
        · simp only [Res.ok.injEq] at k; subst k; exact h0
        · split at k
          · cases k
          · simp only [Res.ok.injEq] at k; subst k; exact h0
      · simp only [Res.ok.injEq] at h; subst h; exact h0
    · split at h
      · split at h
        · obtain ⟨v, hv, k⟩ := Res.bind_eq_ok.1 h
          simp only [Res.ok.injEq] at k
          subst k
          intro x hx
          simp only [Option.mem_def, Option.some.injEq] at hx
          subst hx
          unfold Nip21.slice at hv
          split at hv
          · cases hv
          · simp only [Res.ok.injEq] at hv
            rw [← hv, List.length_take, List.length_drop]
            omega
        · simp only [Res.ok.injEq] at h; subst h; exact h0
      · split at h
        · split at h
          · obtain ⟨_, _, k1⟩ := Res.bind_eq_ok.1 h
            obtain ⟨_, _, k2⟩ := Res.bind_eq_ok.1 k1
            obtain ⟨_, _, k3⟩ := Res.bind_eq_ok.1 k2
            obtain ⟨_, _, k4⟩ := Res.bind_eq_ok.1 k3
            simp only [Res.ok.injEq] at k4
            subst k4; exact h0
          · simp only [Res.ok.injEq] at h; subst h; exact h0
        · simp only [Res.ok.injEq] at h; subst h; exact h0

theorem loop_author {a : Nip21.TlvArgs} {data : Bytes} : ∀ (fuel pos : Nat) (st st' : Nip21.Tlv),
    Nip21.parseLoop a data fuel pos st = .ok st' → (∀ x ∈ st.author, x.length = 32) → ∀ x ∈ st'.author, x.length = 32 := by
  intro fuel
  induction fuel with
  | zero => intro pos st st' h; cases h
  | succ fuel ih =>
    intro pos st st' h h0
    unfold Nip21.parseLoop at h
    split at h
    · obtain ⟨_, _, k1⟩ := Res.bind_eq_ok.1 h
      obtain ⟨_, _, k2⟩ := Res.bind_eq_ok.1 k1
      split at k2
      · cases k2
      · obtain ⟨s1, h1, k3⟩ := Res.bind_eq_ok.1 k2
        exact ih _ _ _ k3 (record_author h1 h0)
    · simp only [Res.ok.injEq] at h; subst h; exact h0

theorem naddr_small {b : Bytes} {x : Nip21.NAddr} (h : Nip21.naddrDecode b = .ok x) :
    x.pubkey.length = 32 ∧ x.identifier.length ≤ 255 := by
  unfold Nip21.naddrDecode at h
  obtain ⟨d, _, k1⟩ := Res.bind_eq_ok.1 h
  obtain ⟨t, ht, k2⟩ := Res.bind_eq_ok.1 k1
  split at k2
  · rename_i pk kd hpk _
    split at k2
    · cases k2
    · rename_i hl
      simp only [Res.ok.injEq] at k2
      subst k2
      refine ⟨loop_author _ _ _ _ ht (fun x hx => (by simp at hx)) pk (by rw [hpk]; rfl), ?_⟩
      have h1 : (Nip21.cstrOf t.special).length ≤ t.special.length := by
        unfold Nip21.cstrOf
        exact (List.takeWhile_sublist _).length_le
      have h2 : Nip21.maxIdentifierLen = 256 := rfl
      simp only
      omega
  · cases k2

theorem quoteTag_eq {b junk : Bytes} {u : Nip21.Uri} (hk : kindPrefix b = true)
    (h : Nip21.uriParse junk (c!"nostr:" ++ b) = .ok u) : quoteTag u = tagOf u ∧ (quoteTag u).isSome ∧ ∀ t ∈ quoteTag u, t ≠ [] := by
  rcases kind_cases hk junk with ⟨t, _, e⟩ | ⟨t, _, e⟩ | ⟨t, _, e⟩ <;> rw [e] at h <;> obtain ⟨a, ha, rfl⟩ := map_ok h
  · simp [quoteTag, tagOf, Hex.hexEncode_eq]
  · refine ⟨?_, rfl, by simp [quoteTag]⟩
    simp only [quoteTag, tagOf, Hex.hexEncode_eq]
    cases a.author <;> simp [Hex.hexEncode_eq, Hex.Spec.hexText]
  · obtain ⟨h1, h2⟩ := naddr_small ha
    refine ⟨?_, rfl, by simp [quoteTag]⟩
    simp only [quoteTag, tagOf, Hex.hexEncode_eq]
    rw [List.take_of_length_le]
    have h3 := Num.decNat_length (n := a.kind.toNat) (k := 10) (by decide) (by have := a.kind.isLt; omega)
    have h4 := Hex.hexText_length a.pubkey
    simp only [List.length_append, List.length_cons, List.length_nil, h4, h1]
    omega

theorem start_noub {p junk : Bytes} (h : Start p) (hj : junk.length = 84) (hl : (uriAt p).length ≠ 96) :
    Nip21.uriParse junk (uriAt p) ≠ .ub := by
  unfold uriAt
  intro hu
  rcases kind_cases (start_uri h) junk with ⟨t, _, e⟩ | ⟨t, _, e⟩ | ⟨t, _, e⟩ <;> rw [e] at hu
  · have hl' : ((p.drop 6).takeWhile isBech).length ≠ 90 := by
      intro h90
      apply hl
      simp only [uriAt, List.length_append, List.length_cons, List.length_nil]
      omega
    have := ((Nostr.Bech32.Props.C05_decode_in_bounds_partial junk _ hj).2 hl').2
    revert hu this
    cases Bech32.eventIdFromBech32 junk ((p.drop 6).takeWhile isBech) <;> simp
  · have := (Nostr.Nip21.Props.C75_uri_in_bounds_partial junk ((p.drop 6).takeWhile isBech) hj).2.1
    revert hu this
    cases Nip21.neventDecode ((p.drop 6).takeWhile isBech) <;> simp
  · have := (Nostr.Nip21.Props.C75_uri_in_bounds_partial junk ((p.drop 6).takeWhile isBech) hj).2.2.1
    revert hu this
    cases Nip21.naddrDecode ((p.drop 6).takeWhile isBech) <;> simp

theorem quoteLoop_spec (cfg : Option Config.Config) (junk : Nat → Bytes) (hj : ∀ i, (junk i).length = 84) :
    ∀ (fuel : Nat) (e : Event) (pos : Bytes), pos.length < fuel → (∀ u ∈ uris pos, u.length ≠ 96) →
    ∃ k r, quoteLoop cfg junk fuel e pos = .ok ({ e with tags := e.tags ++ (found pos).take k }, r) ∧
      (r = none → (found pos).length ≤ k) ∧
      (∀ x, r = some x → x = .invalidParam ∧ k < (found pos).length ∧ ∃ c, cfg = some c ∧ c.maxTags ≤ e.tags.length + k) := by
  intro fuel
  induction fuel with
  | zero => intro e pos h; omega
  | succ fuel ih =>
    intro e pos hl h96
    obtain ⟨f1, f2⟩ := findUri_spec pos.length pos (Nat.le_refl _)
    rw [quoteLoop]
    cases hf : findUri pos.length pos with
    | none =>
      refine ⟨0, none, by simp, fun _ => ?_, fun x h => (by cases h)⟩
      simp [found, f1 hf]
    | some p =>
      obtain ⟨hs, hu, hpl⟩ := f2 p hf
      simp only
      rw [take_uri hs]
      have hu1 := uris_start hs
      have hlp : 6 ≤ p.length := by
        obtain ⟨h1, _⟩ := (start_iff p).1 hs
        have := (List.isPrefixOf_iff_prefix.1 h1).length_le
        simpa using this
      have hnub := start_noub hs (hj fuel) (h96 _ (by rw [hu, hu1]; simp))
      have hfd : found pos = (match Nip21.uriParse (List.replicate 84 0) (uriAt p) with
          | .ok x => (tagOf x).toList
          | _ => []) ++ found (p.drop 1) := by
        unfold found
        rw [hu, hu1, List.filterMap_cons]
        cases Nip21.uriParse (List.replicate 84 0) (uriAt p) with
        | ok x => cases hx : tagOf x <;> simp [hx]
        | err x => simp
        | ub => simp
      cases hp : Nip21.uriParse (junk fuel) (uriAt p) with
      | ub => exact absurd hp hnub
      | err x =>
        simp only
        have hz : (match Nip21.uriParse (List.replicate 84 0) (uriAt p) with
          | .ok x => (tagOf x).toList
          | _ => []) = [] := by
          cases hq : Nip21.uriParse (List.replicate 84 0) (uriAt p) with
          | ok y =>
            have := parse_junk (j2 := junk fuel) (start_uri hs) hq
            unfold uriAt at hp
            rw [this] at hp
            cases hp
          | err y => rfl
          | ub => rfl
        rw [hz, List.nil_append] at hfd
        obtain ⟨k, r, i1, i2, i3⟩ := ih e (p.drop 1) (by rw [List.length_drop]; omega)
          (fun u hu' => h96 u (by rw [hu, hu1]; exact List.mem_cons_of_mem _ hu'))
        exact ⟨k, r, by rw [i1, hfd], by rw [hfd]; exact i2, by rw [hfd]; exact i3⟩
      | ok u =>
        simp only
        have hq := parse_junk (j2 := List.replicate 84 0) (start_uri hs) hp
        have hq' : Nip21.uriParse (List.replicate 84 0) (uriAt p) = .ok u := hq
        rw [hq'] at hfd
        simp only at hfd
        obtain ⟨q1, q2, q3⟩ := quoteTag_eq (start_uri hs) hp
        have hua := uris_after hs hp
        have hfa : found (p.drop 1) = found (p.drop (uriLen p)) := by unfold found; rw [hua]
        cases ht : quoteTag u with
        | none => rw [ht] at q2; cases q2
        | some t =>
          simp only
          rw [← q1, ht, hfa] at hfd
          simp only [Option.toList_some, List.cons_append, List.nil_append] at hfd
          have htne := q3 t (by rw [ht]; rfl)
          by_cases hlim : ∃ c, cfg = some c ∧ c.maxTags ≤ e.tags.length
          · obtain ⟨c, hc, hcl⟩ := hlim
            have : addTag cfg e t = .err .invalidParam := by
              unfold addTag
              rw [if_neg htne, if_pos (by simp [hc, hcl])]
            rw [this]
            refine ⟨0, some .invalidParam, by simp, fun h => (by cases h), fun x hx => ?_⟩
            simp only [Option.some.injEq] at hx
            exact ⟨hx.symm, by rw [hfd]; simp, c, hc, by omega⟩
          · have : addTag cfg e t = .ok { e with tags := e.tags ++ [t] } := by
              unfold addTag
              rw [if_neg htne, if_neg]
              intro hany
              cases cfg with
              | none => simp at hany
              | some c => exact hlim ⟨c, rfl, by simpa using hany⟩
            rw [this]
            simp only
            have hlu : 6 ≤ uriLen p := by unfold uriLen; omega
            obtain ⟨k, r, i1, i2, i3⟩ := ih { e with tags := e.tags ++ [t] } (p.drop (uriLen p)) (by rw [List.length_drop]; omega)
              (fun u hu' => h96 u (by rw [hu, hu1, hua]; exact List.mem_cons_of_mem _ hu'))
            refine ⟨k + 1, r, ?_, ?_, ?_⟩
            · rw [i1, hfd]; simp
            · intro hr; have := i2 hr; rw [hfd]; simp; omega
            · intro x hx
              obtain ⟨j1, j2, c, j3, j4⟩ := i3 x hx
              refine ⟨j1, by rw [hfd]; simp; omega, c, j3, ?_⟩
              simp only [List.length_append, List.length_cons, List.length_nil] at j4
              omega

/-- **C107** (quotes): for any content whose quote URIs are not exactly 96 characters long, the call appends one
`q` tag for every place in the content where a well-formed `note`, `nevent` or `naddr` URI stands, in order, with
the id or address, the first relay hint and the author; it stops early only when no more tags are allowed.
Missing: URIs of 96 characters (`C107_overflow_refuted`). -/
theorem C107_quotes_partial (cfg : Option Config.Config) (junk : Nat → Bytes) (hj : ∀ i, (junk i).length = 84) (e : Event)
    (h96 : ∀ u ∈ uris e.text, u.length ≠ 96) :
    ∃ k r, quoteTags cfg junk e = .ok ({ e with tags := e.tags ++ (found e.text).take k }, r) ∧
      (r = none → (found e.text).length ≤ k) ∧
      (∀ x, r = some x → x = .invalidParam ∧ k < (found e.text).length ∧ ∃ c, cfg = some c ∧ c.maxTags ≤ e.tags.length + k) :=
  quoteLoop_spec cfg junk hj _ e e.text (by omega) h96

/-- **C107, refuted**: a content with a `nostr:note1` URI of 96 characters overruns a stack array. -/
theorem C107_overflow_refuted (cfg : Option Config.Config) (junk : Nat → Bytes) :
    quoteTags cfg junk { zero with content := some (c!"hi nostr:note1" ++ List.replicate 85 0x71) } = .ub := by
  have hf : findUri 99 (c!"hi nostr:note1" ++ List.replicate 85 0x71) = some (c!"nostr:note1" ++ List.replicate 85 0x71) := by
    decide +kernel
  have hu : uriLen (c!"nostr:note1" ++ List.replicate 85 0x71) = 96 := by decide +kernel
  have hp : ∀ j, Nip21.uriParse j (c!"nostr:note1" ++ List.replicate 85 0x71) = .ub := by
    intro j
    have : Nip21.uriParse j (c!"nostr:note1" ++ List.replicate 85 0x71)
        = Nip21.Uri.note <$> Bech32.eventIdFromBech32 j (c!"note1" ++ List.replicate 85 0x71) := rfl
    rw [this, (Nostr.Bech32.Props.C05_fixed_overflow_refuted j).2]
    rfl
  show quoteLoop cfg junk 100 _ (c!"hi nostr:note1" ++ List.replicate 85 0x71) = .ub
  rw [quoteLoop, show (c!"hi nostr:note1" ++ List.replicate 85 (0x71 : UInt8)).length = 99 from by decide +kernel, hf]
  simp only
  rw [hu, List.take_of_length_le (by decide +kernel), hp]

/-- A content with one well-formed quote and one broken one. -/
example : (∀ u ∈ uris (c!"see nostr:note14w46h2at4w46h2at4w46h2at4w46h2at4w46h2at4w46h2at4w4sfreljc, not nostr:naddr1xyz"), u.length ≠ 96) ∧
    found (c!"see nostr:note14w46h2at4w46h2at4w46h2at4w46h2at4w46h2at4w46h2at4w4sfreljc, not nostr:naddr1xyz")
      = [[c!"q", c!"abababababababababababababababababababababababababababababababab", [], []]] := by
  constructor <;> decide +kernel

end Nostr.Nip18.Props
