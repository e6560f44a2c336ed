import Verif.Gift.Lemmas
import Verif.Nip47.Props

/-! # Property theorems: C59, C60, C61, C62, C109 -/

namespace Nostr.Gift.Props
open Nostr Nostr.Event Nostr.Gift Nostr.Gift.Spec Nostr.Json

/-! ## C59 -/

theorem pastTwoDays_ok {now : Int} {o : Option Nat} {t : Int} (h : pastTwoDays now o = .ok t) :
    ∃ r, o = some r ∧ t = now - (r % 172800 : Nat) ∧ InTwoDays now t := by
  cases o with
  | none => cases h
  | some r =>
    simp only [pastTwoDays, Res.ok.injEq] at h
    refine ⟨r, rfl, h.symm, ?_⟩
    have : r % twoDays < 172800 := Nat.mod_lt _ (by decide)
    unfold InTwoDays
    omega

theorem randomize_in (now : Int) (o : Option Nat) : InTwoDays now (randomize now o) := by
  unfold InTwoDays
  cases o with
  | none => simp only [randomize]; omega
  | some r =>
    simp only [randomize]
    have : r % twoDays < 172800 := Nat.mod_lt _ (by decide)
    omega

theorem createSeal_ok {E : Env} {D : Draw} {rumor sl : Event} {sk rpk : Bytes} (h : createSeal E D rumor sk rpk = .ok sl) :
    ∃ text ct time, toJson E.build rumor = .ok text ∧ Nip44.encrypt E.nc E.b64 E.cfg D.nonce sk rpk text = .ok ct ∧
      pastTwoDays D.now D.offset = .ok time ∧ sealOf E D.aux sk time ct = .ok sl := by
  unfold createSeal at h
  obtain ⟨text, h1, k1⟩ := Res.bind_eq_ok.1 h
  obtain ⟨ct, h2, k2⟩ := Res.bind_eq_ok.1 k1
  obtain ⟨time, h3, k3⟩ := Res.bind_eq_ok.1 k2
  exact ⟨text, ct, time, h1, h2, h3, k3⟩

theorem createSeal59_ok {E : Env} {D : Draw} {rumor sl : Event} {sk rpk : Bytes} (h : createSeal59 E D rumor sk rpk = .ok sl) :
    ∃ text ct, toJson E.build rumor = .ok text ∧ Nip44.encrypt E.nc E.b64 E.cfg D.nonce sk rpk text = .ok ct ∧
      sealOf E D.aux sk (randomize D.now D.offset) ct = .ok sl := by
  unfold createSeal59 at h
  obtain ⟨text, h1, k1⟩ := Res.bind_eq_ok.1 h
  obtain ⟨ct, h2, k2⟩ := Res.bind_eq_ok.1 k1
  exact ⟨text, ct, h1, h2, k2⟩

theorem createWrap_ok {E : Env} {D : Draw} {eph : Res (Bytes × Bytes)} {sl w : Event} {rpk : Bytes}
    (h : createWrap E D eph sl rpk = .ok w) :
    ∃ k text ct time, eph = .ok k ∧ toJson E.build sl = .ok text ∧
      Nip44.encrypt E.nc E.b64 E.cfg D.nonce k.1 rpk text = .ok ct ∧ pastTwoDays D.now D.offset = .ok time ∧
      wrapOf E D.aux k.1 k.2 rpk time [] ct = .ok w := by
  unfold createWrap at h
  obtain ⟨k, h0, k0⟩ := Res.bind_eq_ok.1 h
  obtain ⟨text, h1, k1⟩ := Res.bind_eq_ok.1 k0
  obtain ⟨ct, h2, k2⟩ := Res.bind_eq_ok.1 k1
  obtain ⟨time, h3, k3⟩ := Res.bind_eq_ok.1 k2
  exact ⟨k, text, ct, time, h0, h1, h2, h3, k3⟩

theorem createWrap59_ok {E : Env} {D : Draw} {eph : Res (Bytes × Bytes)} {sl w : Event} {rpk : Bytes} {extra : List Bytes}
    (h : createWrap59 E D eph sl rpk extra = .ok w) :
    ∃ k text ct, eph = .ok k ∧ toJson E.build sl = .ok text ∧
      Nip44.encrypt E.nc E.b64 E.cfg D.nonce k.1 rpk text = .ok ct ∧
      wrapOf E D.aux k.1 k.2 rpk (randomize D.now D.offset) extra ct = .ok w := by
  unfold createWrap59 at h
  obtain ⟨k, h0, k0⟩ := Res.bind_eq_ok.1 h
  obtain ⟨text, h1, k1⟩ := Res.bind_eq_ok.1 k0
  obtain ⟨ct, h2, k2⟩ := Res.bind_eq_ok.1 k1
  exact ⟨k, text, ct, h0, h1, h2, k2⟩

/-- C59 for direct messages (NIP-17 calls), seals: the time of a seal is the clock minus a random offset below two days;
without randomness no seal is made. -/
theorem C59_dm_seal {E : Env} {D : Draw} {rumor sl : Event} {sk rpk : Bytes} (h : createSeal E D rumor sk rpk = .ok sl) :
    InTwoDays D.now sl.createdAt ∧ ∃ r, D.offset = some r ∧ sl.createdAt = D.now - (r % 172800 : Nat) := by
  obtain ⟨text, ct, time, -, -, h3, h4⟩ := createSeal_ok h
  obtain ⟨r, hr, ht, hi⟩ := pastTwoDays_ok h3
  obtain ⟨pk, id, sig, r', -, -, -, rfl, -⟩ := sealOf_ok h4
  exact ⟨hi, r, hr, ht⟩

/-- C59 for direct messages, wraps. -/
theorem C59_dm_wrap {E : Env} {D : Draw} {eph : Res (Bytes × Bytes)} {sl w : Event} {rpk : Bytes}
    (h : createWrap E D eph sl rpk = .ok w) :
    InTwoDays D.now w.createdAt ∧ ∃ r, D.offset = some r ∧ w.createdAt = D.now - (r % 172800 : Nat) := by
  obtain ⟨k, text, ct, time, -, -, -, h3, h4⟩ := createWrap_ok h
  obtain ⟨r, hr, ht, hi⟩ := pastTwoDays_ok h3
  obtain ⟨-, g, -⟩ := wrapOf_ok h4
  rw [g]
  exact ⟨hi, r, hr, ht⟩

/-- C59 for direct messages, the whole call: if the generator fails for the seal or for the wrap nothing is sent. -/
theorem C59_dm_send {E : Env} {D1 D2 : Draw} {eph : Res (Bytes × Bytes)} {content sk rpk : Bytes}
    {subject replyTo : Option Bytes} {createdAt : Int} {dm : Event}
    (h : sendDm E D1 D2 eph content sk rpk subject replyTo createdAt = .ok dm) :
    InTwoDays D2.now dm.createdAt ∧ D1.offset ≠ none ∧
      ∃ r, D2.offset = some r ∧ dm.createdAt = D2.now - (r % 172800 : Nat) := by
  unfold sendDm at h
  obtain ⟨rumor, h1, k1⟩ := Res.bind_eq_ok.1 h
  obtain ⟨sl, h2, k2⟩ := Res.bind_eq_ok.1 k1
  obtain ⟨-, r, hr, -⟩ := C59_dm_seal h2
  obtain ⟨h3, h4⟩ := C59_dm_wrap k2
  exact ⟨h3, by rw [hr]; simp, h4⟩

/-- C59 for NIP-59 calls (part): the times are within two days before now. Missing: randomness may be unavailable
(`C59_gift_refuted`). -/
theorem C59_gift_partial {E : Env} {D : Draw} :
    (∀ {rumor sl : Event} {sk rpk : Bytes}, createSeal59 E D rumor sk rpk = .ok sl → InTwoDays D.now sl.createdAt) ∧
    (∀ {eph : Res (Bytes × Bytes)} {sl w : Event} {rpk : Bytes} {extra : List Bytes},
      createWrap59 E D eph sl rpk extra = .ok w → InTwoDays D.now w.createdAt) := by
  constructor
  · intro rumor sl sk rpk h
    obtain ⟨text, ct, -, -, h4⟩ := createSeal59_ok h
    obtain ⟨pk, id, sig, r', -, -, -, rfl, -⟩ := sealOf_ok h4
    exact randomize_in _ _
  · intro eph sl w rpk extra h
    obtain ⟨k, text, ct, -, -, -, h4⟩ := createWrap59_ok h
    obtain ⟨-, g, -⟩ := wrapOf_ok h4
    rw [g]
    exact randomize_in _ _

/-- C59 fails for NIP-59 calls: without randomness every seal and every wrap carries the exact time. -/
theorem C59_gift_refuted {E : Env} {D : Draw} (hr : D.offset = none) :
    (∀ {rumor sl : Event} {sk rpk : Bytes}, createSeal59 E D rumor sk rpk = .ok sl → sl.createdAt = D.now) ∧
    (∀ {eph : Res (Bytes × Bytes)} {sl w : Event} {rpk : Bytes} {extra : List Bytes},
      createWrap59 E D eph sl rpk extra = .ok w → w.createdAt = D.now) := by
  constructor
  · intro rumor sl sk rpk h
    obtain ⟨text, ct, -, -, h4⟩ := createSeal59_ok h
    obtain ⟨pk, id, sig, r', -, -, -, rfl, -⟩ := sealOf_ok h4
    simp [randomize, hr]
  · intro eph sl w rpk extra h
    obtain ⟨k, text, ct, -, -, -, h4⟩ := createWrap59_ok h
    obtain ⟨-, g, -⟩ := wrapOf_ok h4
    rw [g]
    simp [randomize, hr]

/-! ## C60 -/

theorem open_ok {E : Env} {sk pk : Bytes} {content : Option Bytes} {e : Event} :
    open_ E sk pk content = .ok e ↔ ∃ c, content = some c ∧ Holds E sk pk c e := by
  unfold open_ Holds
  cases content with
  | none => simp
  | some c =>
    simp only [Res.bind_eq_ok, Option.some.injEq]
    constructor
    · rintro ⟨m, h1, h2⟩
      exact ⟨c, rfl, m, h1, h2⟩
    · rintro ⟨_, rfl, m, h1, h2⟩
      exact ⟨m, h1, h2⟩

theorem openSeal_ok {E : Env} {wrap sl : Event} {sk : Bytes} : openSeal E wrap sk = .ok sl ↔ SealedIn E wrap sk sl := by
  unfold openSeal
  constructor
  · intro h
    split at h
    · cases h
    rename_i hk
    obtain ⟨s, h1, k1⟩ := Res.bind_eq_ok.1 h
    split at k1
    · cases k1
    rename_i hk'
    obtain ⟨u, h2, k2⟩ := Res.bind_eq_ok.1 k1
    simp only [Res.ok.injEq] at k2
    subst k2
    exact ⟨by omega, open_ok.1 h1, by omega, h2⟩
  · rintro ⟨h1, h2, h3, h4⟩
    rw [if_neg (by omega), open_ok.2 h2]
    simp only [Res.bind_ok]
    rw [if_neg (by omega), h4]
    rfl

/-- C60: unwrapping a direct message yields a message exactly if the wrap has kind 1059, it contains a seal of kind 13
whose id and signature verify, the seal contains the message, and the author of the message is the signer of the seal. -/
theorem C60_authentic {E : Env} {wrap rumor : Event} {sk : Bytes} :
    (unwrapDm E wrap sk).result = .ok rumor ↔
      ∃ sl, SealedIn E wrap sk sl ∧ Inside E sk sl rumor ∧ rumor.pubkey = sl.pubkey := by
  unfold unwrapDm
  constructor
  · intro h
    cases hs : openSeal E wrap sk with
    | ok sl =>
      rw [hs] at h
      simp only at h
      obtain ⟨r, h1, k1⟩ := Res.bind_eq_ok.1 h
      split at k1
      · cases k1
      rename_i hp
      simp only [Res.ok.injEq] at k1
      subst k1
      exact ⟨sl, openSeal_ok.1 hs, open_ok.1 h1, by simpa using hp⟩
    | err e => rw [hs] at h; cases h
    | ub => rw [hs] at h; cases h
  · rintro ⟨sl, h1, h2, h3⟩
    rw [openSeal_ok.2 h1]
    simp only
    rw [open_ok.2 h2]
    simp only [Res.bind_ok]
    rw [if_neg (by simpa using h3)]

/-- C60: a sender is reported only if it signed the seal in the wrap, and with a message it is the author of that
message. -/
theorem C60_sender {E : Env} {wrap : Event} {sk : Bytes} :
    (∀ k, (unwrapDm E wrap sk).sender = some k → ∃ sl, SealedIn E wrap sk sl ∧ sl.pubkey = k) ∧
    (∀ rumor, (unwrapDm E wrap sk).result = .ok rumor → (unwrapDm E wrap sk).sender = some rumor.pubkey) := by
  constructor
  · intro k h
    unfold unwrapDm at h
    cases hs : openSeal E wrap sk with
    | ok sl =>
      rw [hs] at h
      simp only [Option.some.injEq] at h
      exact ⟨sl, openSeal_ok.1 hs, h⟩
    | err e => rw [hs] at h; cases h
    | ub => rw [hs] at h; cases h
  · intro rumor h
    obtain ⟨sl, h1, h2, h3⟩ := C60_authentic.1 h
    unfold unwrapDm
    rw [openSeal_ok.2 h1]
    simp only [h3]

/-! ### Sending and receiving -/

/-- One layer: what was printed and encrypted by one side is read by the other. -/
theorem open_back {E : Env} {td : Int → Int} {fr : Int → Bytes} (hj : E.build = .cjson td fr) {a pa b pb : Bytes}
    (hN : Nip44.Spec.NcOK E.nc a pa b pb) (hB : Nip44.Spec.B64OK E.b64) (hc : Nip44.Spec.CfgOK E.cfg) {e : Event} (w : Event.Spec.WF e)
    (ht : e.createdAt.natAbs < 10 ^ 15)
    (hl : ∀ c ∈ E.cfg, e.tags.length ≤ c.maxTags ∧ e.text.length ≤ c.maxContent) {text ct nonce : Bytes}
    (hn : nonce.length = 32) (htext : toJson E.build e = .ok text) (hlen : text.length ≤ 61440)
    (henc : Nip44.encrypt E.nc E.b64 E.cfg (some nonce) a pb text = .ok ct) :
    Holds E b pa ct { e with content := some e.text } := by
  have hd := Nip44.Props.C15_roundtrip_partial hN hB hc hn hlen henc
  obtain ⟨s, h1, h2⟩ := Event.Props.C20_roundtrip_partial E.plat E.cfg td fr w ht hl
  rw [hj] at htext
  rw [htext, Res.ok.injEq] at h1
  subst h1
  have hz : CStr text := by
    simp only [toJson, Res.ok.injEq] at htext
    rw [← htext]
    exact print_cstr true 0 _ (good_toTree w ht).1
  refine ⟨text, hd, ?_⟩
  rw [cstr_self hz, hj]
  exact h2

theorem encrypt_size {E : Env} (hB : Standard E.b64) {a pa b pb : Bytes} (hN : Nip44.Spec.NcOK E.nc a pa b pb)
    (hc : Nip44.Spec.CfgOK E.cfg) {nonce m t : Bytes} (hn : nonce.length = 32) (hm : m.length ≤ 45056)
    (h : Nip44.encrypt E.nc E.b64 E.cfg (some nonce) a pb m = .ok t) : t.length ≤ 60164 ∧ Nip47.Spec.Plain t := by
  obtain ⟨ck, p, -, -, -, hl, hmax, rfl⟩ := Nip44.Props.encrypt_payload hN hc hn h
  refine ⟨?_, standard_plain hB _⟩
  rw [hB.len]
  have h1 := Nip44.paddedLen_mono (a := m.length) (b := 45056) hm (by decide)
  have h2 : Nip44.paddedLen 45056 = 45056 := by decide +kernel
  rw [h2, Nip44.Props.paddedLen_eq (by omega)] at h1
  simp only [List.length_cons, List.length_append, hn, hN.len, hN.mac, hl]
  omega

theorem escape_ge (s : Bytes) : s.length ≤ (escape s).length := by
  induction s with
  | nil => simp
  | cons c s ih =>
    show s.length + 1 ≤ (escChar c ++ escape s).length
    rw [List.length_append]
    have := (escChar_length c).1
    omega

/-- The JSON text of an event is at least as long as its content. -/
theorem text_le_json (td : Int → Int) (fr : Int → Bytes) (e : Event) : e.text.length ≤ (print true 0 (toTree td fr e)).length := by
  have := escape_ge e.text
  unfold toTree
  simp only [print, printMembers, quoted, if_true, List.length_append, List.length_cons, List.length_nil]
  omega

theorem cjson_of {b : Build} {e : Event} {t : Bytes} (h : toJson b e = .ok t) :
    ∃ td fr, b = .cjson td fr ∧ t = print true 0 (toTree td fr e) := by
  cases b with
  | cjson td fr =>
    simp only [toJson, Res.ok.injEq] at h
    exact ⟨td, fr, rfl, h.symm⟩
  | plain => cases h

/-- A text of more than 45056 bytes becomes a text that cannot be encrypted again. -/
theorem encrypt_twice {E : Env} (hB : Standard E.b64) {a pa b pb a' pa' b' pb' : Bytes} (hN : Nip44.Spec.NcOK E.nc a pa b pb)
    (hN' : Nip44.Spec.NcOK E.nc a' pa' b' pb') (hc : Nip44.Spec.CfgOK E.cfg) {n1 n2 m t m2 t2 : Bytes} (hn1 : n1.length = 32)
    (hn2 : n2.length = 32) (h1 : Nip44.encrypt E.nc E.b64 E.cfg (some n1) a pb m = .ok t)
    (h2 : Nip44.encrypt E.nc E.b64 E.cfg (some n2) a' pb' m2 = .ok t2) (hl : t.length ≤ m2.length) : m.length ≤ 45056 := by
  obtain ⟨ck, p, -, -, -, l1, k1, rfl⟩ := Nip44.Props.encrypt_payload hN hc hn1 h1
  obtain ⟨ck', p', -, -, -, l2, k2, -⟩ := Nip44.Props.encrypt_payload hN' hc hn2 h2
  have hmax : Nip44.maxSize E.cfg ≤ 65535 := by
    unfold Nip44.maxSize
    cases he : E.cfg with
    | none => exact Nat.le_refl _
    | some c => exact (hc c (by rw [he]; rfl)).1.2.2
  rw [hB.len] at hl
  by_cases h : m.length ≤ 45056
  · exact h
  exfalso
  have g1 := Nip44.paddedLen_mono (a := 45057) (b := m.length) (by omega) (by omega)
  have g2 : Nip44.paddedLen 45057 = 49152 := by decide +kernel
  rw [g2, Nip44.Props.paddedLen_eq (by omega)] at g1
  simp only [List.length_cons, List.length_append, hn1, hN.len, hN.mac, l1] at hl
  omega

/-- The outer layer: any seal of a short enough text comes out of its wrap. -/
theorem seal_back {E : Env} {sk pk esk epk rsk rpk : Bytes} (S : Setting E sk pk esk epk rsk rpk) {aux : Option Bytes} {time : Int}
    {ct : Bytes} {sl : Event} (hp : Nip47.Spec.Plain ct) (hl : ct.length ≤ 60164) (ht : time.natAbs < 10 ^ 15)
    (hs : sealOf E aux sk time ct = .ok sl) {w : Event} {text ct2 nonce : Bytes} (hn : nonce.length = 32)
    (htext : toJson E.build sl = .ok text)
    (henc : Nip44.encrypt E.nc E.b64 E.cfg (some nonce) esk rpk text = .ok ct2)
    (hw : w.kind = 1059 ∧ w.pubkey = epk ∧ w.content = some ct2) :
    SealedIn E w rsk sl ∧ sl.pubkey = pk ∧ sl.content = some ct ∧ sl.createdAt = time := by
  obtain ⟨pk', id, sig, r, g1, g2, ⟨t, g3⟩, rfl, e, g4⟩ := sealOf_ok hs
  have hpk : pk' = pk := by
    have := S.sender
    rw [g1, Option.some.injEq] at this
    exact this
  subst hpk
  obtain ⟨td, fr, hj, -⟩ := cjson_of htext
  have l1 : id.length = 32 := by rw [g3]; exact S.crypto.hash t
  have l2 := S.sizes.pub _ _ g1
  have l3 := S.sizes.sig _ _ _ _ g2
  have wf : Event.Spec.WF ⟨id, pk', time, 13, [], some ct, sig⟩ :=
    ⟨l1, l2, l3, by constructor <;> simp only <;> omega, (by decide : 13 < 65536), by simp, Nip47.Props.plain_cstr hp⟩
  have hlen : text.length ≤ 61440 := by
    rw [hj] at htext
    simp only [toJson, Res.ok.injEq] at htext
    rw [← htext]
    have := seal_json_length td fr l1 l2 l3 ht hp
    omega
  have hb := open_back hj S.wrap S.base64.ok S.cfg wf ht (by
    intro c hc
    have := S.limits c hc
    simp only [List.length_nil, Event.text, Option.getD_some]
    omega) hn htext hlen henc
  refine ⟨⟨hw.1, ⟨ct2, hw.2.2, by rw [hw.2.1]; exact hb⟩, rfl, ?_⟩, rfl, rfl, rfl⟩
  exact (Event.Props.C19_signed_verifies S.crypto g4).1

theorem dmTags_eq (rpk : Bytes) (subject replyTo : Option Bytes) : dmTags rpk subject replyTo = messageTags rpk subject replyTo := by
  unfold dmTags messageTags
  cases subject <;> cases replyTo <;> simp [Hex.hexEncode_eq]

theorem addAll_ok {cfg : Option Config.Config} : ∀ {ts : List (List Bytes)} {e e1 : Event}, addAll cfg e ts = .ok e1 →
    e1 = { e with tags := e.tags ++ ts } ∧ (ts ≠ [] → ∀ c ∈ cfg, e1.tags.length ≤ c.maxTags)
  | [], e, e1, h => by
      simp only [addAll, Res.ok.injEq] at h
      exact ⟨by rw [← h]; simp, by simp⟩
  | t :: ts, e, e1, h => by
      simp only [addAll] at h
      obtain ⟨x, h1, h2⟩ := Res.bind_eq_ok.1 h
      obtain ⟨rfl, hm⟩ := addTag_ok h1
      obtain ⟨g1, g2⟩ := addAll_ok h2
      refine ⟨by rw [g1]; simp, fun _ c hc => ?_⟩
      by_cases hts : ts = []
      · subst hts
        rw [g1]
        have := hm c hc
        simp only [List.append_nil, List.length_append, List.length_cons, List.length_nil]
        omega
      · exact g2 hts c hc

/-- The message inside a direct message. -/
theorem dmRumor_ok {E : Env} {now : Int} {content sk rpk : Bytes} {subject replyTo : Option Bytes} {createdAt : Int} {rumor : Event}
    (h : dmRumor E now content sk rpk subject replyTo createdAt = .ok rumor) :
    ∃ pk t, E.crypto.pubOf sk = some pk ∧
      rumor = ⟨E.crypto.sha256 t, pk, if createdAt ≠ 0 then createdAt else now, 14, dmTags rpk subject replyTo, some content,
        List.replicate 64 0⟩ ∧
      serialize E.build { rumor with id := zero.id, tags := [] } = .ok t ∧ ∀ c ∈ E.cfg, rumor.tags.length ≤ c.maxTags := by
  unfold dmRumor at h
  cases hp : E.crypto.pubOf sk with
  | none => rw [hp] at h; cases h
  | some pk =>
    rw [hp] at h
    simp only at h
    obtain ⟨x, h1, h2⟩ := Res.bind_eq_ok.1 h
    unfold createRumor at h1
    obtain ⟨y, h3, h4⟩ := Res.bind_eq_ok.1 h1
    obtain ⟨t, h5, rfl⟩ := computeId_ok h3
    simp only [Res.ok.injEq] at h4
    subst h4
    obtain ⟨g1, g2⟩ := addAll_ok h2
    have e1 : rumor = ⟨E.crypto.sha256 t, pk, if createdAt ≠ 0 then createdAt else now, 14, dmTags rpk subject replyTo,
        some content, List.replicate 64 0⟩ := by
      rw [g1]; rfl
    refine ⟨pk, t, rfl, e1, ?_, g2 (by simp [dmTags])⟩
    rw [e1]
    exact h5

/-- The conditions on a message for which delivery is shown. -/
structure Sendable (content : Bytes) (subject replyTo : Option Bytes) (createdAt : Int) : Prop where
  contentText : CStr content
  subjectText : ∀ s ∈ subject, CStr s
  replyId : ∀ r ∈ replyTo, r.length = 32
  time : createdAt.natAbs < 10 ^ 15

theorem rumor_wf {id pk rpk content : Bytes} {time : Int} {subject replyTo : Option Bytes} {createdAt : Int}
    (hm : Sendable content subject replyTo createdAt) (l1 : id.length = 32) (l2 : pk.length = 32) (ht : time.natAbs < 10 ^ 15) :
    Event.Spec.WF ⟨id, pk, time, 14, dmTags rpk subject replyTo, some content, List.replicate 64 0⟩ := by
  refine ⟨l1, l2, List.length_replicate, by constructor <;> simp only <;> omega, (by decide : 14 < 65536), ?_, hm.contentText⟩
  rw [dmTags_eq]
  intro tg htg
  simp only [messageTags, List.mem_append, List.mem_singleton, List.mem_map, Option.mem_toList] at htg
  rcases htg with (rfl | ⟨s, hs, rfl⟩) | ⟨r, hr, rfl⟩
  · exact ⟨by simp, by
      intro v hv
      simp only [List.mem_cons, List.not_mem_nil, or_false] at hv
      rcases hv with rfl | rfl
      · decide
      · rw [← Hex.hexEncode_eq]; exact hexText_cstr _⟩
  · exact ⟨by simp, by
      intro v hv
      simp only [List.mem_cons, List.not_mem_nil, or_false] at hv
      rcases hv with rfl | rfl
      · decide
      · exact hm.subjectText v hs⟩
  · exact ⟨by simp, by
      intro v hv
      simp only [List.mem_cons, List.not_mem_nil, or_false] at hv
      rcases hv with rfl | rfl
      · decide
      · rw [← Hex.hexEncode_eq]; exact hexText_cstr _⟩

/-- C109: a direct message that was sent is a gift wrap for the recipient, signed by the one-time key and naming
the recipient only; the recipient unwraps exactly the message: author, text, subject, reply and time, and is told the
sender. (A text too long for the recipient to read cannot be sent: the seal would not fit into the wrap.) Missing: times of
16 or more digits (`C109_time_refuted`), and a content limit below 60164 bytes, the longest seal (`C109_limit_refuted`). -/
theorem C109_delivers_partial {E : Env} {sk pk esk epk rsk rpk : Bytes} (S : Setting E sk pk esk epk rsk rpk) {D1 D2 : Draw}
    {n1 n2 : Bytes} (hn1 : D1.nonce = some n1 ∧ n1.length = 32) (hn2 : D2.nonce = some n2 ∧ n2.length = 32)
    (ht1 : D1.now.natAbs < 10 ^ 14) {content : Bytes} {subject replyTo : Option Bytes} {createdAt : Int} {dm : Event}
    (hm : Sendable content subject replyTo createdAt)
    (h : sendDm E D1 D2 (.ok (esk, epk)) content sk rpk subject replyTo createdAt = .ok dm) :
    (dm.kind = 1059 ∧ dm.pubkey = epk ∧ dm.tags = [[c!"p", Hex.Spec.hexText rpk]] ∧ verify E.crypto E.build dm = .ok ()) ∧
    (unwrapDm E dm rsk).sender = some pk ∧
    ∃ rumor, (unwrapDm E dm rsk).result = .ok rumor ∧ dmRumor E D1.now content sk rpk subject replyTo createdAt = .ok rumor ∧
      rumor.kind = 14 ∧ rumor.pubkey = pk ∧ rumor.content = some content ∧
      rumor.tags = messageTags rpk subject replyTo ∧ rumor.createdAt = (if createdAt ≠ 0 then createdAt else D1.now) := by
  unfold sendDm at h
  obtain ⟨rumor, h1, k1⟩ := Res.bind_eq_ok.1 h
  obtain ⟨sl, h2, k2⟩ := Res.bind_eq_ok.1 k1
  obtain ⟨text, ct, time, s1, s2, s3, s4⟩ := createSeal_ok h2
  obtain ⟨k, text2, ct2, time2, w0, w1, w2, w3, w4⟩ := createWrap_ok k2
  simp only [Res.ok.injEq] at w0
  subst w0
  obtain ⟨pk', t, r1, r2, r3, r4⟩ := dmRumor_ok h1
  have hpk : pk' = pk := by
    have := S.sender
    rw [r1, Option.some.injEq] at this
    exact this
  subst hpk
  obtain ⟨td, fr, hj, htx⟩ := cjson_of s1
  have l1 : (E.crypto.sha256 t).length = 32 := S.crypto.hash t
  have l2 := S.sizes.pub _ _ r1
  have ht : (if createdAt ≠ 0 then createdAt else D1.now).natAbs < 10 ^ 15 := by
    split
    · exact hm.time
    · omega
  have hz : (if createdAt ≠ 0 then createdAt else D1.now) = rumor.createdAt := by rw [r2]
  have wf : Event.Spec.WF rumor := by
    rw [r2]
    exact rumor_wf hm l1 l2 ht
  rw [hn1.1] at s2
  rw [hn2.1] at w2
  have hlen : text.length ≤ 45056 := by
    refine encrypt_twice S.base64 S.seal_ S.wrap S.cfg hn1.2 hn2.2 s2 w2 ?_
    obtain ⟨_, _, _, htx2⟩ := cjson_of w1
    obtain ⟨_, _, _, _, _, _, _, hsl, _⟩ := sealOf_ok s4
    rw [htx2]
    have := text_le_json ‹_› ‹_› sl
    rw [hsl] at this ⊢
    exact this
  obtain ⟨c1, c2⟩ := encrypt_size S.base64 S.seal_ S.cfg hn1.2 hlen s2
  obtain ⟨q1, q2, q3, q4, q5, e, q7⟩ := wrapOf_ok w4
  have hep : dm.pubkey = epk := by
    have := S.once
    rw [q4, Option.some.injEq] at this
    exact this
  obtain ⟨o, ho, htime, -⟩ := pastTwoDays_ok s3
  have hts : time.natAbs < 10 ^ 15 := by
    have : o % 172800 < 172800 := Nat.mod_lt _ (by decide)
    omega
  obtain ⟨b1, b2, b3, b4⟩ := seal_back S c2 c1 hts s4 hn2.2 w1 w2 ⟨q1, hep, q3⟩
  have hin := open_back hj S.seal_ S.base64.ok S.cfg wf (by rw [← hz]; exact ht) (by
    intro c hc
    refine ⟨r4 c hc, ?_⟩
    have h5 := S.limits c hc
    have h6 : rumor.text = content := by rw [r2]; rfl
    have h7 := text_le_json td fr rumor
    rw [← htx] at h7
    rw [h6] at h7 ⊢
    omega) hn1.2 s1 (by omega) s2
  have hrw : ({ rumor with content := some rumor.text } : Event) = rumor := by
    have h6 : rumor.content = some rumor.text := by rw [r2]; rfl
    rw [← h6]
  rw [hrw] at hin
  have hres : (unwrapDm E dm rsk).result = .ok rumor :=
    C60_authentic.2 ⟨sl, b1, ⟨ct, b3, by rw [b2]; exact hin⟩, by rw [b2, r2]⟩
  refine ⟨⟨q1, hep, by rw [q5]; rfl, (Event.Props.C19_signed_verifies S.crypto q7).1⟩, ?_, rumor, hres, h1, ?_⟩
  · rw [(C60_sender).2 rumor hres, r2]
  · rw [r2]
    exact ⟨rfl, rfl, rfl, dmTags_eq _ _ _, rfl⟩

/-! ### Concrete surroundings -/

/-- Toy cryptography with the right sizes: the hash is the first 32 bytes, a signature is the message filled up to 64
bytes, the public key is the secret key. -/
def sized : Crypto where
  sha256 t := (t ++ List.replicate 32 0).take 32
  pubOf sk := if sk.length = 32 then some sk else none
  sign _ m _ := some ((m ++ List.replicate 64 7).take 64)
  validPub _ := true
  verify _ m s := s == (m ++ List.replicate 64 7).take 64

theorem sized_ok : Nostr.Event.Props.CryptoOK sized :=
  ⟨fun t => by simp [sized], fun _ _ _ => rfl, fun sk pk m r s _ h => by
    simp only [sized, Option.some.injEq] at h
    simp only [sized, h, beq_self_eq_true]⟩

theorem sized_sizes : Sizes sized := by
  refine ⟨fun sk pk h => ?_, fun sk m r s h => ?_⟩
  · simp only [sized] at h
    split at h
    · simp only [Option.some.injEq] at h; rw [← h]; assumption
    · cases h
  · simp only [sized, Option.some.injEq] at h
    rw [← h]
    simp

/-- Toy surroundings with standard base64; the conversation key of `a` and `b` is the sum of both keys. -/
def toy : Env := ⟨Nip47.Props.sumNc, Base64.codec, sized, none, .cjson id fun _ => [], ⟨fun _ => 0, false⟩⟩

theorem codec_standard : Standard Base64.codec := ⟨Base64.codec_ok, Base64.enc_chars, Base64.enc_length⟩

/-- Sender 1…, one-time key 2…, recipient 3…. -/
theorem toy_setting : Setting toy (List.replicate 32 1) (List.replicate 32 1) (List.replicate 32 2) (List.replicate 32 2)
    (List.replicate 32 3) (List.replicate 32 3) where
  crypto := sized_ok
  sizes := sized_sizes
  base64 := codec_standard
  cfg := by intro c hc; cases hc
  limits := by intro c hc; cases hc
  sender := rfl
  once := rfl
  recipient := rfl
  seal_ := Nip47.Props.sumNc_ok _ _
  wrap := Nip47.Props.sumNc_ok _ _

/-- What a layer draws. -/
def draw : Draw := ⟨some (List.replicate 32 5), some 1000, some [], 1700000000⟩

/-- The hypotheses of the delivery theorem are met: a message with subject and reply is sent. -/
example : (sendDm toy draw draw (.ok (List.replicate 32 2, List.replicate 32 2)) (c!"hi \"you\"") (List.replicate 32 1)
    (List.replicate 32 3) (some (c!"greeting")) (some (List.replicate 32 9)) 0).isOk = true := by
  decide +kernel

example : Sendable (c!"hi \"you\"") (some (c!"greeting")) (some (List.replicate 32 9)) 0 :=
  ⟨by decide, by decide, by decide, by decide⟩

/-- C109 fails for times beyond 2^53: messages of two different times are sent as the same gift wrap, so the recipient
cannot get the right time of both. -/
theorem C109_time_refuted {E : Env} {td : Int → Int} {fr : Int → Bytes} (hE : E.build = .cjson td fr)
    (hd : td (2 ^ 53 + 1) = td (2 ^ 53)) (D1 D2 : Draw) (eph : Res (Bytes × Bytes)) (content sk rpk : Bytes)
    (subject replyTo : Option Bytes) :
    sendDm E D1 D2 eph content sk rpk subject replyTo (2 ^ 53 + 1) = sendDm E D1 D2 eph content sk rpk subject replyTo (2 ^ 53) := by
  have hn : numTok td fr (2 ^ 53 + 1) = numTok td fr (2 ^ 53) := by
    unfold numTok
    rw [if_neg (by decide), if_neg (by decide), hd]
  unfold sendDm dmRumor
  cases E.crypto.pubOf sk with
  | none => rfl
  | some pk =>
    simp only [createRumor, computeId]
    rw [if_pos (by decide), if_pos (by decide), hE]
    have hser : ∀ e : Event, serialize (.cjson td fr) { e with createdAt := 2 ^ 53 + 1 } = serialize (.cjson td fr) { e with createdAt := 2 ^ 53 } := by
      intro e
      simp only [serialize, idTree, hn, Event.text]
    have hz := hser { zero with kind := 14, pubkey := pk, content := some content }
    simp only at hz
    rw [hz]
    cases hs : serialize (.cjson td fr) ({ zero with kind := 14, pubkey := pk, createdAt := 2 ^ 53, content := some content } : Event) with
    | err e => rfl
    | ub => rfl
    | ok t =>
      simp only [Res.bind_ok]
      have hadd : ∀ (ts : List (List Bytes)) (e : Event) (k : Event → Res Event),
          (∀ e : Event, k { e with createdAt := 2 ^ 53 + 1 } = k { e with createdAt := 2 ^ 53 }) →
          (addAll E.cfg { e with createdAt := 2 ^ 53 + 1 } ts >>= k) = (addAll E.cfg { e with createdAt := 2 ^ 53 } ts >>= k) := by
        intro ts
        induction ts with
        | nil => intro e k hk; exact hk e
        | cons tg ts ih =>
          intro e k hk
          simp only [addAll, addTag]
          by_cases hg : (E.cfg.any fun c => decide (e.tags.length ≥ c.maxTags)) = true
          · rw [if_pos hg, if_pos hg]
          · rw [if_neg hg, if_neg hg]
            by_cases h0 : tg = []
            · rw [if_pos h0, if_pos h0]
            · rw [if_neg h0, if_neg h0]
              exact ih { e with tags := e.tags ++ [tg] } k hk
      refine hadd (dmTags rpk subject replyTo) ⟨E.crypto.sha256 t, pk, 0, 14, [], some content, List.replicate 64 0⟩ _ ?_
      intro e
      have hj : toJson E.build { e with createdAt := 2 ^ 53 + 1 } = toJson E.build { e with createdAt := 2 ^ 53 } := by
        rw [hE]
        simp only [toJson, toTree, hn, Event.text]
      simp only [createSeal, hj]

example : (sendDm { toy with build := .cjson (fun n => if n = 2 ^ 53 + 1 then 2 ^ 53 else n) fun _ => c!"9.0e15" } draw draw
    (.ok (List.replicate 32 2, List.replicate 32 2)) (c!"hi") (List.replicate 32 1) (List.replicate 32 3) none none (2 ^ 53)).isOk = true := by
  decide +kernel

/-- The default configuration with the least content limit allowed. -/
def narrow : Config.Config := { Config.defaults with maxContent := 1024 }

/-- C109 fails with a small content limit: a message of 400 bytes is sent, but the recipient, with the same configuration,
cannot unwrap it. The limit is applied only when an event is read. -/
theorem C109_limit_refuted : ∃ (content : Bytes) (dm : Event), Config.Spec.InRange narrow ∧ content.length = 400 ∧
    content.length < narrow.maxContent ∧
    sendDm { toy with cfg := some narrow } draw draw (.ok (List.replicate 32 2, List.replicate 32 2)) content (List.replicate 32 1)
      (List.replicate 32 3) none none 0 = .ok dm ∧
    (unwrapDm { toy with cfg := some narrow } dm (List.replicate 32 3)).result = .err .invalidParam := by
  have hok : (sendDm { toy with cfg := some narrow } draw draw (.ok (List.replicate 32 2, List.replicate 32 2)) (List.replicate 400 0x61)
      (List.replicate 32 1) (List.replicate 32 3) none none 0).isOk = true := by decide +kernel
  have hun : (sendDm { toy with cfg := some narrow } draw draw (.ok (List.replicate 32 2, List.replicate 32 2)) (List.replicate 400 0x61)
      (List.replicate 32 1) (List.replicate 32 3) none none 0 >>= fun dm =>
        (unwrapDm { toy with cfg := some narrow } dm (List.replicate 32 3)).result) = .err .invalidParam := by decide +kernel
  refine ⟨List.replicate 400 0x61, ?_⟩
  cases hs : sendDm { toy with cfg := some narrow } draw draw (.ok (List.replicate 32 2, List.replicate 32 2)) (List.replicate 400 0x61)
      (List.replicate 32 1) (List.replicate 32 3) none none 0 with
  | ok dm =>
    rw [hs] at hun
    exact ⟨dm, by unfold Config.Spec.InRange; decide, List.length_replicate, by rw [List.length_replicate]; decide, rfl, hun⟩
  | err e => rw [hs] at hok; cases hok
  | ub => rw [hs] at hok; cases hok

/-- A message whose author is not the signer of the seal is refused, but the signer is reported. -/
example : (wrapEvent toy draw draw (.ok (List.replicate 32 2, List.replicate 32 2)) Event.Props.note (List.replicate 32 1)
    (List.replicate 32 3) >>= fun w => (unwrapDm toy w (List.replicate 32 3)).result) = .err .invalidEvent := by
  decide +kernel

/-! ## C134 -/

/-- **C134.** A gift wrap that is made from a seal and a list of further tags, given as keys and values in turn, is an
event of kind 1059 that verifies under the one-time key. Its tags are the recipient followed by exactly the given tags
in order, and its content is the JSON text of the seal, encrypted for the recipient. -/
theorem C134_wrap {E : Env} (hC : Nostr.Event.Props.CryptoOK E.crypto) {esk epk rpk : Bytes} (ho : E.crypto.pubOf esk = some epk) {D : Draw}
    {sl w : Event} (extra : List (Bytes × Bytes))
    (h : createWrap59 E D (.ok (esk, epk)) sl rpk (extra.flatMap fun p => [p.1, p.2]) = .ok w) :
    w.kind = 1059 ∧ w.pubkey = epk ∧ Event.verify E.crypto E.build w = .ok () ∧
      w.tags = [c!"p", Hex.Spec.hexText rpk] :: extra.map (fun p => [p.1, p.2]) ∧
      ∃ ct t, w.content = some ct ∧ toJson E.build sl = .ok t ∧ Nip44.encrypt E.nc E.b64 E.cfg D.nonce esk rpk t = .ok ct := by
  obtain ⟨k, text, ct, w0, w1, w2, w4⟩ := createWrap59_ok h
  simp only [Res.ok.injEq] at w0
  subst w0
  obtain ⟨q1, q2, q3, q4, q5, e, q7⟩ := wrapOf_ok w4
  have hep : w.pubkey = epk := by
    rw [q4, Option.some.injEq] at ho
    exact ho
  exact ⟨q1, hep, (Event.Props.C19_signed_verifies hC q7).1, by rw [q5, twos_flat], ct, text, q3, w1, w2⟩

/-- **C134** (part; missing: seals with a text of more than 61440 bytes, `C134_large_refuted`). The recipient decrypts the content of the
gift wrap to the text of the seal. -/
theorem C134_read_partial {E : Env} {sk pk esk epk rsk rpk : Bytes} (S : Setting E sk pk esk epk rsk rpk) {D : Draw} {nonce : Bytes}
    (hn : D.nonce = some nonce ∧ nonce.length = 32) {sl w : Event} (extra : List (Bytes × Bytes)) {t : Bytes}
    (ht : toJson E.build sl = .ok t) (hl : t.length ≤ 61440)
    (h : createWrap59 E D (.ok (esk, epk)) sl rpk (extra.flatMap fun p => [p.1, p.2]) = .ok w) :
    ∃ ct, w.content = some ct ∧ Nip44.decrypt E.nc E.b64 E.cfg rsk epk ct = .ok t := by
  obtain ⟨-, -, -, -, ct, t', q3, w1, w2⟩ := C134_wrap S.crypto S.once extra h
  rw [ht, Res.ok.injEq] at w1
  subst w1
  rw [hn.1] at w2
  exact ⟨ct, q3, Nip44.Props.C15_roundtrip_partial S.wrap S.base64.ok S.cfg hn.2 hl w2⟩

/-- C134 fails for larger seals: the gift wrap is made, but nobody can read it. -/
theorem C134_large_refuted {E : Env} {sk pk esk epk rsk rpk : Bytes} (S : Setting E sk pk esk epk rsk rpk) {D : Draw} {nonce : Bytes}
    (hn : D.nonce = some nonce ∧ nonce.length = 32) {sl w : Event} (extra : List (Bytes × Bytes)) {t : Bytes}
    (ht : toJson E.build sl = .ok t) (hl : 61440 < t.length)
    (h : createWrap59 E D (.ok (esk, epk)) sl rpk (extra.flatMap fun p => [p.1, p.2]) = .ok w) :
    ∃ ct, w.content = some ct ∧ Nip44.decrypt E.nc E.b64 E.cfg rsk epk ct = .err .invalidParam := by
  obtain ⟨-, -, -, -, ct, t', q3, w1, w2⟩ := C134_wrap S.crypto S.once extra h
  rw [ht, Res.ok.injEq] at w1
  subst w1
  rw [hn.1] at w2
  exact ⟨ct, q3, Nip44.Props.long_rejected S.wrap S.base64.ok S.cfg hn.2 hl w2⟩

/-- Such a wrap is made: encryption takes texts of up to 65535 bytes without a configured limit. -/
example {E : Env} {sk pk esk epk rsk rpk nonce ck : Bytes} (_ : Setting E sk pk esk epk rsk rpk) (hc : E.cfg = none)
    (hk : E.nc.conv esk rpk = some ck) (t : Bytes) (h2 : t.length ≤ 65535) (h1 : 61440 < t.length) :
    ∃ ct, Nip44.encrypt E.nc E.b64 E.cfg (some nonce) esk rpk t = .ok ct := by
  rw [hc]
  unfold Nip44.encrypt
  simp only [Nip44.pad_ok (cfg := none) (m := t) (by simp [Nip44.minSize]; omega) (by simpa [Nip44.maxSize] using h2)
    (by simp [Nip44.maxSize]), Res.bind_ok, hk]
  exact ⟨_, rfl⟩

/-- A wrap with two further tags. -/
example : (createWrap59 toy draw (.ok (List.replicate 32 2, List.replicate 32 2)) Event.Props.note (List.replicate 32 3)
    ([(c!"expiration", c!"1800000000"), (c!"k", c!"14")].flatMap fun p => [p.1, p.2])).isOk = true := by
  decide +kernel

/-! ## C61 -/

/-- C61 (part): unwrapping a gift wrap yields exactly the event inside a seal that verifies, and the reported author is
the signer of that seal. Missing: the author named in the event itself may be anybody (`C61_impersonation_refuted`). -/
theorem C61_sealed_partial {E : Env} {wrap e : Event} {sk : Bytes} {k : Option Bytes} :
    ((unwrapEvent E wrap sk).result = .ok e ∧ (unwrapEvent E wrap sk).sender = k) ↔
      ∃ sl, SealedIn E wrap sk sl ∧ Inside E sk sl e ∧ k = some sl.pubkey := by
  unfold unwrapEvent
  constructor
  · rintro ⟨h, hk⟩
    cases hs : openSeal E wrap sk with
    | ok sl =>
      rw [hs] at h hk
      exact ⟨sl, openSeal_ok.1 hs, open_ok.1 h, hk.symm⟩
    | err e => rw [hs] at h; cases h
    | ub => rw [hs] at h; cases h
  · rintro ⟨sl, h1, h2, rfl⟩
    rw [openSeal_ok.2 h1]
    exact ⟨open_ok.2 h2, rfl⟩

/-- C61 (part): a caller that compares the reported author with the author of the event gets what NIP-17 unwrapping
gives. -/
theorem C61_checked_partial {E : Env} {wrap e : Event} {sk : Bytes} (h : (unwrapEvent E wrap sk).result = .ok e)
    (hk : (unwrapEvent E wrap sk).sender = some e.pubkey) : (unwrapDm E wrap sk).result = .ok e := by
  obtain ⟨sl, h1, h2, h3⟩ := C61_sealed_partial.1 ⟨h, hk⟩
  simp only [Option.some.injEq] at h3
  exact C60_authentic.2 ⟨sl, h1, h2, h3⟩

/-- C61 fails for every event: whoever has any key at all can wrap an event naming any author, with the library's own
call, and the recipient unwraps it with success. -/
theorem C61_impersonation_refuted {E : Env} {sk pk esk epk rsk rpk : Bytes} (S : Setting E sk pk esk epk rsk rpk) {D1 D2 : Draw}
    {n1 n2 : Bytes} (hn1 : D1.nonce = some n1 ∧ n1.length = 32) (hn2 : D2.nonce = some n2 ∧ n2.length = 32)
    (ht1 : D1.now.natAbs < 10 ^ 14) {forged w : Event} (wf : Event.Spec.WF forged) (ht : forged.createdAt.natAbs < 10 ^ 15)
    (hc : ∀ c ∈ E.cfg, forged.tags.length ≤ c.maxTags)
    (h : wrapEvent E D1 D2 (.ok (esk, epk)) forged sk rpk = .ok w) :
    (unwrapEvent E w rsk).result = .ok { forged with content := some forged.text } ∧ (unwrapEvent E w rsk).sender = some pk := by
  unfold wrapEvent at h
  obtain ⟨sl, h1, k1⟩ := Res.bind_eq_ok.1 h
  obtain ⟨text, ct, s1, s2, s4⟩ := createSeal59_ok h1
  obtain ⟨k, text2, ct2, w0, w1, w2, w4⟩ := createWrap59_ok k1
  simp only [Res.ok.injEq] at w0
  subst w0
  obtain ⟨td, fr, hj, htx⟩ := cjson_of s1
  rw [hn1.1] at s2
  rw [hn2.1] at w2
  have hlen : text.length ≤ 45056 := by
    refine encrypt_twice S.base64 S.seal_ S.wrap S.cfg hn1.2 hn2.2 s2 w2 ?_
    obtain ⟨_, _, _, htx2⟩ := cjson_of w1
    obtain ⟨_, _, _, _, _, _, _, hsl, _⟩ := sealOf_ok s4
    rw [htx2]
    have := text_le_json ‹_› ‹_› sl
    rw [hsl] at this ⊢
    exact this
  obtain ⟨c1, c2⟩ := encrypt_size S.base64 S.seal_ S.cfg hn1.2 hlen s2
  obtain ⟨q1, q2, q3, q4, -, -⟩ := wrapOf_ok w4
  have hep : w.pubkey = epk := by
    have := S.once
    rw [q4, Option.some.injEq] at this
    exact this
  have hts : (randomize D1.now D1.offset).natAbs < 10 ^ 15 := by
    have := randomize_in D1.now D1.offset
    unfold InTwoDays at this
    omega
  obtain ⟨b1, b2, b3, b4⟩ := seal_back S c2 c1 hts s4 hn2.2 w1 w2 ⟨q1, hep, q3⟩
  have hin := open_back hj S.seal_ S.base64.ok S.cfg wf ht (by
    intro c hm
    refine ⟨hc c hm, ?_⟩
    have h5 := S.limits c hm
    have h7 := text_le_json td fr forged
    rw [← htx] at h7
    omega) hn1.2 s1 (by omega) s2
  exact C61_sealed_partial.2 ⟨sl, b1, ⟨ct, b3, by rw [b2]; exact hin⟩, by rw [b2]⟩

/-- The same event, wrapped by key 1…, is signed by nobody and names `abab…` as author. -/
example : (wrapEvent toy draw draw (.ok (List.replicate 32 2, List.replicate 32 2)) Event.Props.note (List.replicate 32 1)
    (List.replicate 32 3)).isOk = true ∧ Event.Props.note.pubkey ≠ List.replicate 32 1 := by
  refine ⟨by decide +kernel, by decide⟩

/-! ## C62 -/

/-- C62 (part): the id of a message is right when it is created (both calls), and the message is as asked and unsigned. Missing: `send_dm` adds tags afterwards
(`C62_sent_refuted`). -/
theorem C62_created_partial {E : Env} {now : Int} {kind : Nat} {pk : Bytes} {rumor : Event} :
    (∀ {content : Bytes} {createdAt : Int}, createRumor E now kind pk content createdAt = .ok rumor →
      RightId E rumor ∧ ∃ id, rumor =
        ⟨id, pk, if createdAt ≠ 0 then createdAt else now, kind, [], some content, List.replicate 64 0⟩) ∧
    (∀ {content : Option Bytes}, createRumor59 E now kind pk content = .ok rumor →
      RightId E rumor ∧ ∃ id, rumor = ⟨id, pk, now, kind, [], content, List.replicate 64 0⟩) := by
  have ser : ∀ (e : Event) (i s : Bytes), serialize E.build { e with id := i, sig := s } = serialize E.build e := by
    intro e i s
    cases E.build <;> rfl
  constructor
  · intro content createdAt h
    unfold createRumor at h
    obtain ⟨y, h3, h4⟩ := Res.bind_eq_ok.1 h
    obtain ⟨t, h5, rfl⟩ := computeId_ok h3
    simp only [Res.ok.injEq] at h4
    subst h4
    exact ⟨⟨t, (ser _ _ _).trans h5, rfl⟩, _, rfl⟩
  · intro content h
    unfold createRumor59 at h
    obtain ⟨y, h3, h4⟩ := Res.bind_eq_ok.1 h
    obtain ⟨t, h5, rfl⟩ := computeId_ok h3
    simp only [Res.ok.injEq] at h4
    subst h4
    exact ⟨⟨t, (ser _ _ _).trans h5, rfl⟩, _, rfl⟩

example : (createRumor toy 1700000000 14 (List.replicate 32 1) (c!"hi") 0).isOk = true := by decide +kernel

/-- C62 fails for every direct message: the recipient finds an id that is the hash of the message without its tags. If it
were also the hash of the message, SHA-256 would have a collision. -/
theorem C62_sent_refuted {E : Env} {sk pk esk epk rsk rpk : Bytes} (S : Setting E sk pk esk epk rsk rpk) {D1 D2 : Draw}
    {n1 n2 : Bytes} (hn1 : D1.nonce = some n1 ∧ n1.length = 32) (hn2 : D2.nonce = some n2 ∧ n2.length = 32)
    (ht1 : D1.now.natAbs < 10 ^ 14) {content : Bytes} {subject replyTo : Option Bytes} {createdAt : Int} {dm rumor : Event}
    (hm : Sendable content subject replyTo createdAt)
    (h : sendDm E D1 D2 (.ok (esk, epk)) content sk rpk subject replyTo createdAt = .ok dm)
    (hr : (unwrapDm E dm rsk).result = .ok rumor) :
    (∃ t, serialize E.build { rumor with tags := [] } = .ok t ∧ rumor.id = E.crypto.sha256 t) ∧
    (RightId E rumor → ∃ x y, x ≠ y ∧ E.crypto.sha256 x = E.crypto.sha256 y) := by
  obtain ⟨-, -, r', g1, g2, g3, g4, g5, g6, g7⟩ := C109_delivers_partial S hn1 hn2 ht1 hm h
  rw [hr, Res.ok.injEq] at g1
  subst g1
  obtain ⟨pk', t, r1, r2, r3, r4⟩ := dmRumor_ok g2
  have ser : serialize E.build { rumor with tags := [] } = .ok t := by
    rw [← r3]
    cases E.build <;> rfl
  refine ⟨⟨t, ser, by rw [r2]⟩, ?_⟩
  rintro ⟨y, hy1, hy2⟩
  refine ⟨t, y, ?_, by rw [← hy2, r2]⟩
  rintro rfl
  have hpk : pk' = pk := by
    have := S.sender
    rw [r1, Option.some.injEq] at this
    exact this
  subst hpk
  have l2 := S.sizes.pub _ _ r1
  have ht : (if createdAt ≠ 0 then createdAt else D1.now).natAbs < 10 ^ 15 := by
    split
    · exact hm.time
    · omega
  have hz : (if createdAt ≠ 0 then createdAt else D1.now) = rumor.createdAt := by rw [r2]
  have wf : Event.Spec.WF rumor := by
    rw [r2]
    exact rumor_wf hm (S.crypto.hash t) l2 ht
  have wf' : Event.Spec.WF { rumor with tags := [] } := ⟨wf.id, wf.pubkey, wf.sig, wf.time, wf.kind, by simp, wf.content⟩
  obtain ⟨td, fr, hj⟩ : ∃ td fr, E.build = .cjson td fr := by
    unfold sendDm at h
    obtain ⟨_, -, k1⟩ := Res.bind_eq_ok.1 h
    obtain ⟨_, h2, -⟩ := Res.bind_eq_ok.1 k1
    obtain ⟨_, _, _, s1, -⟩ := createSeal_ok h2
    obtain ⟨td, fr, hj, -⟩ := cjson_of s1
    exact ⟨td, fr, hj⟩
  have rg : ∀ e : Event, e.createdAt = rumor.createdAt → Event.Props.InRange E.build e := by
    intro e he
    rw [hj]
    show e.createdAt.natAbs < 10 ^ 15
    rw [he, ← hz]
    exact ht
  have hsame := (Event.Props.C17_injective_partial wf wf' (rg _ rfl) (rg _ rfl)).1 (by rw [hy1, ser])
  have : rumor.tags = [] := hsame.2.2.2.1
  rw [r2] at this
  simp [dmTags] at this

end Nostr.Gift.Props
