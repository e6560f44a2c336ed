import Verif.Journey.Mail
import Verif.Journey.Props
import Verif.Gift.Props

/-! # Property C202: a private message reaches its recipient through a relay -/

namespace Nostr.Journey.Mail.Props
open Nostr Nostr.Event Nostr.Json Nostr.Journey.Spec Nostr.Journey.Mail Nostr.Gift Nostr.Gift.Spec

/-! ## Lemmas -/

theorem serialize_hosts (a b : Host) {e : Event} (hk : e.kind < 65536) (ht : e.createdAt.natAbs < 10 ^ 15) :
    serialize a.b e = serialize b.b e := by
  simp only [Host.b, Event.serialize, idTree, numTok_small _ _ ht, numTok_small _ _ (n := (e.kind : Int)) (by omega),
    numTok_small _ _ (n := 0) (by decide)]

theorem toJson_hosts (a b : Host) {e : Event} (hk : e.kind < 65536) (ht : e.createdAt.natAbs < 10 ^ 15) :
    toJson a.b e = toJson b.b e := by
  simp only [Host.b, Event.toJson, toTree, numTok_small _ _ ht, numTok_small _ _ (n := (e.kind : Int)) (by omega)]

theorem computeId_hosts (C : Crypto) (a b : Host) {e : Event} (hk : e.kind < 65536) (ht : e.createdAt.natAbs < 10 ^ 15) :
    computeId C a.b e = computeId C b.b e := by
  unfold computeId
  rw [serialize_hosts a b hk ht]

theorem sign_hosts (C : Crypto) (a b : Host) (r : Option Bytes) (sk : Bytes) {e : Event} (hk : e.kind < 65536)
    (ht : e.createdAt.natAbs < 10 ^ 15) : sign C a.b r sk e = sign C b.b r sk e := by
  unfold sign
  cases C.pubOf sk with
  | none => rfl
  | some pk => simp only; rw [computeId_hosts C a b (e := { e with pubkey := pk }) hk ht]

theorem encrypt_wider {N : Nip44.Nc} {B : Nip44.B64} {s r : Option Config.Config} (hw : Wider s r) {n : Option Bytes} {sk pk m t : Bytes}
    (h : Nip44.encrypt N B s n sk pk m = .ok t) : Nip44.encrypt N B r n sk pk m = .ok t := by
  unfold Nip44.encrypt at h ⊢
  cases n with
  | none => cases h
  | some n =>
    simp only at h ⊢
    obtain ⟨p, hp, h⟩ := Res.bind_eq_ok.1 h
    have : Nip44.pad r m = .ok p := by
      have := hw.least
      have := hw.most
      unfold Nip44.pad at hp ⊢
      split at hp
      · cases hp
      · rw [if_neg (by omega)]
        exact hp
    rw [this, Res.bind_ok]
    exact h

theorem addTag_room {c' : Option Config.Config} {e : Event} {v : List Bytes} (hv : v ≠ []) (hr : ∀ c ∈ c', e.tags.length < c.maxTags) :
    addTag c' e v = .ok { e with tags := e.tags ++ [v] } := by
  unfold addTag
  rw [if_neg hv, if_neg]
  cases c' with
  | none => simp
  | some c => have := hr c rfl; simp only [Option.any_some, decide_eq_true_eq]; omega

theorem addAll_room {c' : Option Config.Config} : ∀ (ts : List (List Bytes)) (e : Event), (∀ t ∈ ts, t ≠ []) →
    (∀ c ∈ c', e.tags.length + ts.length ≤ c.maxTags) → addAll c' e ts = .ok { e with tags := e.tags ++ ts }
  | [], e, _, _ => by simp [addAll]
  | t :: ts, e, hn, hr => by
    unfold addAll
    rw [addTag_room (hn t (by simp)) (fun c hc => by have := hr c hc; simp only [List.length_cons] at this; omega), Res.bind_ok,
      addAll_room ts _ (fun t ht => hn t (by simp [ht])) (fun c hc => by
        have := hr c hc
        simp only [List.length_cons, List.length_append, List.length_nil] at this ⊢
        omega)]
    simp

theorem dmTags_nonempty (rpk : Bytes) (subject replyTo : Option Bytes) :
    (∀ t ∈ dmTags rpk subject replyTo, t ≠ []) ∧ (dmTags rpk subject replyTo).length ≤ 3 := by
  unfold dmTags
  cases subject <;> cases replyTo <;> simp

variable {nc : Nip44.Nc} {B : Nip44.B64} {C : Crypto}

theorem rumor_hosts {a b : Host} (hb : ∀ c ∈ b.cfg, 3 ≤ c.maxTags) {now : Int} {content sk rpk : Bytes} {subject replyTo : Option Bytes}
    {createdAt : Int} (ht : (if createdAt ≠ 0 then createdAt else now).natAbs < 10 ^ 15) {rumor : Event}
    (h : dmRumor (env a nc B C) now content sk rpk subject replyTo createdAt = .ok rumor) :
    dmRumor (env b nc B C) now content sk rpk subject replyTo createdAt = .ok rumor := by
  unfold dmRumor at h ⊢
  cases hp : C.pubOf sk with
  | none => simp only [env, hp] at h; cases h
  | some pk =>
    simp only [env, hp] at h ⊢
    obtain ⟨x, h1, h2⟩ := Res.bind_eq_ok.1 h
    have hx : createRumor (env b nc B C) now 14 pk content createdAt = .ok x ∧ x.tags = [] := by
      unfold createRumor at h1 ⊢
      simp only [env] at h1 ⊢
      rw [computeId_hosts C b a (by simp only; decide) ht]
      refine ⟨h1, ?_⟩
      obtain ⟨y, h3, h4⟩ := Res.bind_eq_ok.1 h1
      obtain ⟨t, -, rfl⟩ := computeId_ok h3
      cases h4
      rfl
    have hx1 := hx.1
    simp only [env] at hx1
    rw [hx1, Res.bind_ok, addAll_room _ _ (dmTags_nonempty rpk subject replyTo).1 (fun c hc => by
      have := hb c hc
      have := (dmTags_nonempty rpk subject replyTo).2
      rw [hx.2]
      simp only [List.length_nil]
      omega), ← (Gift.Props.addAll_ok h2).1]

/-- A message that one host sends, another with wider limits would send in the same form. -/
theorem send_hosts {a b : Host} (hw : Wider a.cfg b.cfg) {D1 D2 : Draw} (ht1 : D1.now.natAbs < 10 ^ 14) (ht2 : D2.now.natAbs < 10 ^ 14)
    {eph : Res (Bytes × Bytes)} {content sk rpk : Bytes} {subject replyTo : Option Bytes} {createdAt : Int}
    (hc : createdAt.natAbs < 10 ^ 15) {dm : Event}
    (h : sendDm (env a nc B C) D1 D2 eph content sk rpk subject replyTo createdAt = .ok dm) :
    sendDm (env b nc B C) D1 D2 eph content sk rpk subject replyTo createdAt = .ok dm := by
  have hin : ∀ {now : Int} {o : Option Nat} {t : Int}, now.natAbs < 10 ^ 14 → pastTwoDays now o = .ok t → t.natAbs < 10 ^ 15 := by
    intro now o t hn h
    obtain ⟨r, -, h, -⟩ := Gift.Props.pastTwoDays_ok h
    have : r % 172800 < 172800 := Nat.mod_lt _ (by decide)
    omega
  have ht : (if createdAt ≠ 0 then createdAt else D1.now).natAbs < 10 ^ 15 := by
    split
    · exact hc
    · omega
  unfold sendDm at h ⊢
  obtain ⟨rumor, h1, k1⟩ := Res.bind_eq_ok.1 h
  obtain ⟨sl, h2, k2⟩ := Res.bind_eq_ok.1 k1
  obtain ⟨pk, t, -, r2, -⟩ := Gift.Props.dmRumor_ok h1
  rw [rumor_hosts hw.tags ht h1, Res.bind_ok]
  have hs : createSeal (env b nc B C) D1 rumor sk rpk = .ok sl := by
    obtain ⟨text, ct, time, s1, s2, s3, s4⟩ := Gift.Props.createSeal_ok h2
    have j : toJson (env b nc B C).build rumor = .ok text := by
      rw [← s1]
      exact toJson_hosts b a (by rw [r2]; exact (by decide : 14 < 65536)) (by rw [r2]; exact ht)
    have s2' : Nip44.encrypt (env b nc B C).nc (env b nc B C).b64 (env b nc B C).cfg D1.nonce sk rpk text = .ok ct := encrypt_wider hw s2
    unfold createSeal
    rw [j, Res.bind_ok, s2', Res.bind_ok, s3, Res.bind_ok]
    unfold sealOf at s4 ⊢
    simp only [env] at s4 ⊢
    cases hp : C.pubOf sk with
    | none => rw [hp] at s4; cases s4
    | some pk =>
      rw [hp] at s4
      simp only at s4 ⊢
      obtain ⟨x, y1, y2⟩ := Res.bind_eq_ok.1 s4
      rw [computeId_hosts C b a (by simp only; decide) (hin ht1 s3), y1, Res.bind_ok]
      obtain ⟨t, -, rfl⟩ := computeId_ok y1
      rw [sign_hosts C b a _ _ (by simp only; decide) (hin ht1 s3)]
      exact y2
  rw [hs, Res.bind_ok]
  obtain ⟨k, text, ct, time, w0, w1, w2, w3, w4⟩ := Gift.Props.createWrap_ok k2
  have hsl : sl.kind = 13 ∧ sl.createdAt.natAbs < 10 ^ 15 := by
    obtain ⟨_, _, time', _, _, s3, s4⟩ := Gift.Props.createSeal_ok h2
    obtain ⟨_, _, _, _, _, _, _, rfl, -⟩ := sealOf_ok s4
    exact ⟨rfl, hin ht1 s3⟩
  have j : toJson (env b nc B C).build sl = .ok text := by
    rw [← w1]
    exact toJson_hosts b a (by omega) hsl.2
  have w2' : Nip44.encrypt (env b nc B C).nc (env b nc B C).b64 (env b nc B C).cfg D2.nonce k.1 rpk text = .ok ct := encrypt_wider hw w2
  unfold createWrap
  rw [w0, Res.bind_ok, j, Res.bind_ok, w2', Res.bind_ok, w3, Res.bind_ok]
  unfold wrapOf at w4 ⊢
  obtain ⟨e1, y1, w4⟩ := Res.bind_eq_ok.1 w4
  obtain ⟨e2, y2, w4⟩ := Res.bind_eq_ok.1 w4
  obtain ⟨e3, y3, w4⟩ := Res.bind_eq_ok.1 w4
  obtain ⟨g1, -⟩ := addTag_ok y1
  have y2' := y2
  unfold pairTags at y2'
  cases y2'
  rw [addTag_room (by simp) (fun c hc => by have := hw.tags c hc; simp only [zero, List.length_nil]; omega), ← g1, Res.bind_ok]
  show pairTags b.cfg e1 [] >>= _ = _
  unfold pairTags
  rw [Res.bind_ok]
  have hk : e1.kind < 65536 := by rw [g1]; simp only; decide
  have he : e1.createdAt.natAbs < 10 ^ 15 := by rw [g1]; exact hin ht2 w3
  have y3' : computeId C a.b e1 = .ok e3 := y3
  show computeId C b.b e1 >>= _ = _
  rw [computeId_hosts C b a hk he, y3', Res.bind_ok]
  obtain ⟨t, -, rfl⟩ := computeId_ok y3
  show sign C b.b _ _ _ = _
  exact (sign_hosts C b a _ _ (e := { e1 with id := C.sha256 t }) hk he).trans w4

/-- The length of a text encrypted. -/
theorem encrypt_length {E : Env} (hB : Standard E.b64) {a pa b pb : Bytes} (hN : Nip44.Spec.NcOK E.nc a pa b pb)
    (hc : Nip44.Spec.CfgOK E.cfg) {nonce m t : Bytes} (hn : nonce.length = 32)
    (h : Nip44.encrypt E.nc E.b64 E.cfg (some nonce) a pb m = .ok t) :
    m.length ≤ 65535 ∧ t.length = (Nip44.paddedLen m.length + 69) / 3 * 4 := by
  obtain ⟨ck, p, -, -, -, hl, hmax, rfl⟩ := Nip44.Props.encrypt_payload hN hc hn h
  have hmax : m.length ≤ 65535 := by
    refine Nat.le_trans hmax ?_
    unfold Nip44.maxSize
    cases he : E.cfg with
    | none => exact Nat.le_refl _
    | some c => exact (hc c (by rw [he]; rfl)).1.2.2
  refine ⟨hmax, ?_⟩
  rw [hB.len, Nip44.Props.paddedLen_eq hmax]
  simp only [List.length_cons, List.length_append, hn, hN.len, hN.mac, hl]
  congr 2
  omega

/-- What is known of a message that was sent: its shape, and how long its content is. -/
theorem sent_shape {h : Host} {sk pk esk epk rsk rpk : Bytes} (S : Setting (env h nc B C) sk pk esk epk rsk rpk) {D1 D2 : Draw}
    {n1 n2 : Bytes} (hn1 : D1.nonce = some n1 ∧ n1.length = 32) (hn2 : D2.nonce = some n2 ∧ n2.length = 32)
    (ht1 : D1.now.natAbs < 10 ^ 14) (ht2 : D2.now.natAbs < 10 ^ 14) {content : Bytes} {subject replyTo : Option Bytes} {createdAt : Int}
    {dm : Event} (hs : sendDm (env h nc B C) D1 D2 (.ok (esk, epk)) content sk rpk subject replyTo createdAt = .ok dm) :
    Event.Spec.WF dm ∧ dm.createdAt.natAbs < 10 ^ 15 ∧ dm.kind = 1059 ∧ dm.tags = [[c!"p", Hex.Spec.hexText rpk]] ∧
      dm.content = some dm.text ∧ (∃ r sk' draft, sign C h.b r sk' draft = .ok dm) ∧
      ∀ rumor t, dmRumor (env h nc B C) D1.now content sk rpk subject replyTo createdAt = .ok rumor → toJson h.b rumor = .ok t →
        (t.length ≤ 32768 ↔ dm.text.length ≤ 65536) := by
  unfold sendDm at hs
  obtain ⟨rumor, h1, k1⟩ := Res.bind_eq_ok.1 hs
  obtain ⟨sl, h2, k2⟩ := Res.bind_eq_ok.1 k1
  obtain ⟨text, ct, time, s1, s2, s3, s4⟩ := Gift.Props.createSeal_ok h2
  obtain ⟨k, text2, ct2, time2, w0, w1, w2, w3, w4⟩ := Gift.Props.createWrap_ok k2
  cases w0
  rw [hn1.1] at s2
  rw [hn2.1] at w2
  obtain ⟨q1, q2, q3, q4, q5, e, q7⟩ := wrapOf_ok w4
  obtain ⟨pk', t', r', sig, g1, g2, g3, g4, g5⟩ := sign_ok q7
  obtain ⟨o, -, htime, -⟩ := Gift.Props.pastTwoDays_ok s3
  obtain ⟨o2, -, htime2, -⟩ := Gift.Props.pastTwoDays_ok w3
  have m1 : o % 172800 < 172800 := Nat.mod_lt _ (by decide)
  have m2 : o2 % 172800 < 172800 := Nat.mod_lt _ (by decide)
  have hts : time.natAbs < 10 ^ 15 := by omega
  have hts2 : time2.natAbs < 10 ^ 15 := by omega
  have htx : dm.text = ct2 := by unfold Event.text; rw [q3]; rfl
  obtain ⟨l1, l2⟩ := encrypt_length S.base64 S.seal_ S.cfg hn1.2 s2
  obtain ⟨l3, l4⟩ := encrypt_length S.base64 S.wrap S.cfg hn2.2 w2
  have plain : Nip47.Spec.Plain ct := by
    obtain ⟨_, _, _, _, _, _, _, rfl⟩ := Nip44.Props.encrypt_payload S.seal_ S.cfg hn1.2 s2
    exact standard_plain S.base64 _
  have plain2 : Nip47.Spec.Plain ct2 := by
    obtain ⟨_, _, _, _, _, _, _, rfl⟩ := Nip44.Props.encrypt_payload S.wrap S.cfg hn2.2 w2
    exact standard_plain S.base64 _
  refine ⟨⟨?_, S.sizes.pub _ _ q4, ?_, ?_, ?_, ?_, ?_⟩, by rw [q2]; exact hts2, q1, by rw [q5]; rfl, by rw [htx]; exact q3, ⟨_, _, _, q7⟩, ?_⟩
  · rw [g5]; exact S.crypto.hash t'
  · rw [g5]; exact S.sizes.sig _ _ _ _ g4
  · rw [q2]; constructor <;> omega
  · rw [q1]; decide
  · rw [q5]
    intro t ht
    simp only [twos, List.mem_singleton] at ht
    subst ht
    refine ⟨by simp, ?_⟩
    intro v hv
    simp only [List.mem_cons, List.not_mem_nil, or_false] at hv
    rcases hv with rfl | rfl
    · decide
    · rw [← Hex.hexEncode_eq]; exact hexText_cstr _
  · rw [htx]; exact Nip47.Props.plain_cstr plain2
  · intro rm t hr ht
    rw [h1] at hr
    cases hr
    have s1' : toJson h.b rumor = .ok text := s1
    rw [s1'] at ht
    cases ht
    rw [htx, l4]
    obtain ⟨pk2, id, sg, r, j1, j2, ⟨tt, j3⟩, j4, -⟩ := sealOf_ok s4
    have lid : id.length = 32 := by rw [j3]; exact S.crypto.hash tt
    obtain ⟨td, fr, -, hx⟩ := Gift.Props.cjson_of w1
    have up := seal_json_length td fr lid (S.sizes.pub _ _ j1) (S.sizes.sig _ _ _ _ j2) hts plain
    rw [← j4, ← hx] at up
    have lo := Gift.Props.text_le_json td fr sl
    rw [← hx] at lo
    have hst : sl.text = ct := by rw [j4]; rfl
    rw [hst] at lo
    constructor
    · intro hle
      have h1 := Nip44.paddedLen_mono (a := text.length) (b := 32768) hle (by decide)
      have h2 : Nip44.paddedLen 32768 = 32768 := by decide +kernel
      have h3 := Nip44.paddedLen_mono (a := text2.length) (b := 45056) (by omega) (by decide)
      have h4 : Nip44.paddedLen 45056 = 45056 := by decide +kernel
      omega
    · intro hle
      refine Nat.le_of_not_lt fun hlt => ?_
      have h1 := Nip44.paddedLen_mono (a := 32769) (b := text.length) (by omega) (by omega)
      have h2 : Nip44.paddedLen 32769 = 36864 := by decide +kernel
      have h3 := Nip44.paddedLen_mono (a := 49153) (b := text2.length) (by omega) (by omega)
      have h4 : Nip44.paddedLen 49153 = 53248 := by decide +kernel
      omega

theorem inbox_matches {rpk : Bytes} {e : Event} (hk : e.kind = 1059) (ht : e.tags = [[c!"p", Hex.Spec.hexText rpk]]) :
    Filter.matches_ (inbox rpk) e = true := by
  unfold Filter.matches_ inbox
  simp [Filter.empty, hk, Filter.tagMatch, ht, RelayProto.tagValuesN, Filter.maxValues]

/-- Content above the limit is refused. -/
theorem fromTree_refused (P : Plat) {cfg : Option Config.Config} (td : Int → Int) (fr : Int → Bytes) {e : Event} (w : Event.Spec.WF e)
    (hc : ∃ c ∈ cfg, c.maxContent < e.text.length) : fromTree P cfg (toTree td fr e) = .err .invalidParam := by
  obtain ⟨c, hm, hlt⟩ := hc
  cases hm
  have g1 : get (toTree td fr e) (c!"id") = some (.str (Hex.hexEncode e.id)) := by rfl
  have g2 : get (toTree td fr e) (c!"pubkey") = some (.str (Hex.hexEncode e.pubkey)) := by rfl
  have g3 : get (toTree td fr e) (c!"content") = some (.str e.text) := by rfl
  unfold fromTree
  simp only [hexField, g1, g2, Option.bind_some, asStr, hexToBytes_encode P.lax0x w.id, hexToBytes_encode P.lax0x w.pubkey, Res.bind_ok,
    contentField, g3, Option.any_some, decide_eq_true hlt, if_true, Res.bind_err]

/-! ## C202 -/

/-- **C202** (partial: times below 10^15, see `C109_time_refuted`, and messages whose JSON text has at most 32768 bytes,
`C202_too_long_refuted`): a private message that was sent and published reaches the recipient that asked a relay for its messages. Exactly
one callback is made there, and unwrapping the event it gets yields the message as it was written, and who wrote it. The three hosts may have
different builds and platforms, and different limits as long as none is below the defaults. -/
theorem C202_arrives_partial {author relay client : Host} (hr : Renum relay.r) (hc : Renum client.r) {sk pk esk epk rsk rpk : Bytes}
    (S : Setting (env client nc B C) sk pk esk epk rsk rpk) (hw : Wider author.cfg client.cfg) (hrelay : Reads relay) (hclient : Reads client)
    {D1 D2 : Draw} {n1 n2 : Bytes} (hn1 : D1.nonce = some n1 ∧ n1.length = 32) (hn2 : D2.nonce = some n2 ∧ n2.length = 32)
    (ht1 : D1.now.natAbs < 10 ^ 14) (ht2 : D2.now.natAbs < 10 ^ 14) {content : Bytes} {subject replyTo : Option Bytes} {createdAt : Int}
    (hm : Gift.Props.Sendable content subject replyTo createdAt) {rumor dm : Event} {rt : Bytes}
    (hrum : dmRumor (env author nc B C) D1.now content sk rpk subject replyTo createdAt = .ok rumor) (hrt : toJson author.b rumor = .ok rt)
    (hlen : rt.length ≤ 32768)
    (hs : sendDm (env author nc B C) D1 D2 (.ok (esk, epk)) content sk rpk subject replyTo createdAt = .ok dm)
    (open_ : List (Bytes × List Filter.Filter)) {id : Bytes} {fs : List Filter.Filter} (ho : (id, fs) ∈ open_) (hf : inbox rpk ∈ fs)
    (hid : CStr id) (hl : id.length ≤ 64) (hasCb : Bool) (past : List Relay.Spec.Op) {cb : Nat}
    (hcb : (Relay.Spec.stack id past).head? = some (some cb)) :
    ∃ t n, Relay.sendEvent author.b dm = .ok t ∧ ∀ k, n < k → ∃ m, (id, m) ∈ forward C relay k open_ t ∧
      ∀ cs chunk, cs.flatten = m → (∀ c ∈ cs, c.length ≤ chunk) → m.length + chunk + 1024 ≤ 10485760 →
        ∃ got, arrive client hasCb past cs = some [.event cb got] ∧ (unwrapDm (env client nc B C) got rsk).sender = some pk ∧
          ∃ message, (unwrapDm (env client nc B C) got rsk).result = .ok message ∧ message.kind = 14 ∧ message.pubkey = pk ∧
            message.content = some content ∧ message.tags = messageTags rpk subject replyTo ∧
            message.createdAt = (if createdAt ≠ 0 then createdAt else D1.now) := by
  have ht : (if createdAt ≠ 0 then createdAt else D1.now).natAbs < 10 ^ 15 := by
    split
    · exact hm.time
    · omega
  have hs' := send_hosts hw ht1 ht2 hm.time hs
  obtain ⟨w, w1, w2, w3, w4, ⟨r, sk', draft, w5⟩, w6⟩ := sent_shape S hn1 hn2 ht1 ht2 hs'
  obtain ⟨-, d1, msg, d2, -, d3, d4, d5, d6, d7⟩ := Gift.Props.C109_delivers_partial S hn1 hn2 ht1 hm hs'
  have hrum' := rumor_hosts (nc := nc) (B := B) (C := C) (b := client) hw.tags ht hrum
  obtain ⟨_, _, -, r2, -⟩ := Gift.Props.dmRumor_ok hrum
  have hle := (w6 rumor rt hrum' (by
    rw [← hrt]
    exact toJson_hosts client author (by rw [r2]; exact (by decide : 14 < 65536)) (by rw [r2]; exact ht))).1 hlen
  have adm : ∀ h : Host, Reads h → h.Admits dm := by
    intro h hh c hc
    have := hh c hc
    rw [w3]
    exact ⟨this.1, Nat.le_trans hle this.2⟩
  have hd : delivered dm = dm := by unfold delivered; rw [← w4]
  have hmatch : Filter.filtersMatch fs dm = true := List.any_eq_true.2 ⟨inbox rpk, hf, inbox_matches w2 w3⟩
  obtain ⟨t, n, a1, a2⟩ := Journey.Props.C198_delivered_partial S.crypto (author := client) hr hc w5 w w1 (adm relay hrelay) (adm client hclient)
    open_ ho hmatch hid hl hasCb past hcb
  have a1' : Relay.sendEvent author.b dm = .ok t := by
    rw [← a1]
    unfold Relay.sendEvent
    rw [toJson_hosts author client (by rw [w2]; decide) w1]
  refine ⟨t, n, a1', fun k hk => ?_⟩
  obtain ⟨m, b1, b2⟩ := a2 k hk
  refine ⟨m, b1, fun cs chunk c1 c2 c3 => ?_⟩
  obtain ⟨e1, -⟩ := b2 cs chunk c1 c2 c3
  rw [hd] at e1
  exact ⟨dm, e1, d1, msg, d2, d3, d4, d5, d6, d7⟩

/-- C202 fails for longer messages: they are sent and published without an error, but a relay with the default content limit (or a smaller
one) passes them on to nobody, and a recipient with such a limit cannot read them. -/
theorem C202_too_long_refuted {author relay : Host} (hr : Renum relay.r) {sk pk esk epk rsk rpk : Bytes}
    (S : Setting (env author nc B C) sk pk esk epk rsk rpk) (hrelay : Limited relay)
    {D1 D2 : Draw} {n1 n2 : Bytes} (hn1 : D1.nonce = some n1 ∧ n1.length = 32) (hn2 : D2.nonce = some n2 ∧ n2.length = 32)
    (ht1 : D1.now.natAbs < 10 ^ 14) (ht2 : D2.now.natAbs < 10 ^ 14) {content : Bytes} {subject replyTo : Option Bytes} {createdAt : Int}
    {rumor dm : Event} {rt : Bytes}
    (hrum : dmRumor (env author nc B C) D1.now content sk rpk subject replyTo createdAt = .ok rumor) (hrt : toJson author.b rumor = .ok rt)
    (hlen : 32768 < rt.length)
    (hs : sendDm (env author nc B C) D1 D2 (.ok (esk, epk)) content sk rpk subject replyTo createdAt = .ok dm) :
    (∃ t, Relay.sendEvent author.b dm = .ok t ∧ ∀ k open_, forward C relay k open_ t = []) ∧
    ∃ t, toJson author.b dm = .ok t ∧ fromJson relay.P relay.b relay.cfg t = .err .invalidParam := by
  obtain ⟨w, w1, w2, w3, w4, -, w6⟩ := sent_shape S hn1 hn2 ht1 ht2 hs
  have hgt : 65536 < dm.text.length := by
    have := w6 rumor rt hrum hrt
    omega
  obtain ⟨c, hc, hle⟩ := hrelay
  have hno := fun td fr => fromTree_refused relay.P td fr w ⟨c, hc, Nat.lt_of_le_of_lt hle hgt⟩
  obtain ⟨g1, g2⟩ := good_toTree (td := author.td) (fr := author.fr) w w1
  constructor
  · obtain ⟨t, h1, h2⟩ := Journey.Props.sent (a := author) w w1
    refine ⟨t, h1, fun k open_ => ?_⟩
    have h3 := parse_print false 0 _ g1 g2 [] (by simp [Stop])
    rw [List.append_nil] at h3
    unfold forward
    simp only [Msg.clientParse, Nat.lt_irrefl, gt_iff_lt, if_false, h2, Msg.ofRoot, asArr, asStr, if_true, Msg.eventArg, fromJson, Host.b,
      reprint, Journey.Props.mapNum_toTree hr author.td author.fr w w1, h3, hno]
    rfl
  · have h3 := parse_print true 0 _ g1 g2 [] (by simp [Stop])
    rw [List.append_nil] at h3
    exact ⟨_, rfl, by simp only [fromJson, Host.b, h3, hno]⟩

/-- Encryption within the default limits succeeds. -/
theorem encrypt_done {N : Nip44.Nc} {B : Nip44.B64} {cfg : Option Config.Config} (hmin : Nip44.minSize cfg ≤ 1)
    (hmax : Nip44.maxSize cfg = 65535) {nonce sk pk m ck : Bytes} (hk : N.conv sk pk = some ck) (h1 : 1 ≤ m.length) (h2 : m.length ≤ 65535) :
    ∃ t, Nip44.encrypt N B cfg (some nonce) sk pk m = .ok t := by
  unfold Nip44.encrypt
  simp only
  rw [Nip44.pad_ok (by omega) (by omega) (by omega), Res.bind_ok, hk]
  exact ⟨_, rfl⟩

theorem sign_done {h : Host} {sk pk aux : Bytes} (hp : C.pubOf sk = some pk) (hs : ∀ m, (C.sign sk m aux).isSome) (e : Event) :
    ∃ e', sign C h.b (some aux) sk e = .ok e' := by
  unfold sign
  rw [hp]
  simp only [computeId, Host.b, Event.serialize, Res.bind_ok]
  have := hs (C.sha256 (print false 0 (idTree h.td h.fr { e with pubkey := pk })))
  cases hc : C.sign sk (C.sha256 (print false 0 (idTree h.td h.fr { e with pubkey := pk }))) aux with
  | none => rw [hc] at this; cases this
  | some s => exact ⟨_, rfl⟩

/-- **C202**: with the default limits, a message can be sent exactly if its JSON text has at most 45056 bytes. Together with
`C202_too_long_refuted`: those of 32769 to 45056 bytes are sent in vain. -/
theorem C202_sends {h : Host} {sk pk esk epk rsk rpk : Bytes} (S : Setting (env h nc B C) sk pk esk epk rsk rpk)
    (hmin : Nip44.minSize h.cfg ≤ 1) (hmax : Nip44.maxSize h.cfg = 65535) (htags : ∀ c ∈ h.cfg, 3 ≤ c.maxTags) {D1 D2 : Draw}
    {n1 n2 a1 a2 k1 k2 : Bytes} (hn1 : D1.nonce = some n1 ∧ n1.length = 32) (hn2 : D2.nonce = some n2 ∧ n2.length = 32)
    (ho : D1.offset ≠ none ∧ D2.offset ≠ none) (ha : D1.aux = some a1 ∧ D2.aux = some a2) (ht1 : D1.now.natAbs < 10 ^ 14)
    (hk : nc.conv sk rpk = some k1 ∧ nc.conv esk rpk = some k2) (hsign : ∀ m, (C.sign sk m a1).isSome ∧ (C.sign esk m a2).isSome)
    {content : Bytes} {subject replyTo : Option Bytes} {createdAt : Int} {rumor : Event} {rt : Bytes}
    (hrum : dmRumor (env h nc B C) D1.now content sk rpk subject replyTo createdAt = .ok rumor) (hrt : toJson h.b rumor = .ok rt) :
    (∃ dm, sendDm (env h nc B C) D1 D2 (.ok (esk, epk)) content sk rpk subject replyTo createdAt = .ok dm) ↔ rt.length ≤ 45056 := by
  have hr' : toJson (env h nc B C).build rumor = .ok rt := hrt
  constructor
  · rintro ⟨dm, hs⟩
    unfold sendDm at hs
    rw [hrum, Res.bind_ok] at hs
    obtain ⟨sl, h2, k2⟩ := Res.bind_eq_ok.1 hs
    obtain ⟨text, ct, time, s1, s2, s3, s4⟩ := Gift.Props.createSeal_ok h2
    obtain ⟨k, text2, ct2, time2, w0, w1, w2, w3, w4⟩ := Gift.Props.createWrap_ok k2
    cases w0
    rw [hr'] at s1
    cases s1
    rw [hn1.1] at s2
    rw [hn2.1] at w2
    refine Gift.Props.encrypt_twice S.base64 S.seal_ S.wrap S.cfg hn1.2 hn2.2 s2 w2 ?_
    obtain ⟨td, fr, -, htx2⟩ := Gift.Props.cjson_of w1
    obtain ⟨_, _, _, _, _, _, _, hsl, _⟩ := sealOf_ok s4
    rw [htx2]
    have := Gift.Props.text_le_json td fr sl
    rw [hsl] at this ⊢
    exact this
  · intro hle
    have pos : ∀ (e : Event) (t : Bytes), toJson h.b e = .ok t → 1 ≤ t.length := by
      intro e t he
      simp only [Host.b, toJson, Res.ok.injEq] at he
      subst he
      unfold toTree
      simp only [print, if_true, List.length_append, List.length_cons]
      omega
    obtain ⟨o1, ho1⟩ := Option.ne_none_iff_exists'.1 ho.1
    obtain ⟨o2, ho2⟩ := Option.ne_none_iff_exists'.1 ho.2
    obtain ⟨ct, s2⟩ := encrypt_done (N := nc) (B := B) (nonce := n1) hmin hmax hk.1 (pos _ _ hrt) (by omega : rt.length ≤ 65535)
    have s2' : Nip44.encrypt (env h nc B C).nc (env h nc B C).b64 (env h nc B C).cfg (some n1) sk rpk rt = .ok ct := s2
    obtain ⟨c1, c2⟩ := Gift.Props.encrypt_size S.base64 S.seal_ S.cfg hn1.2 hle s2'
    have hm : o1 % twoDays < 172800 := Nat.mod_lt _ (by decide)
    have htime : (D1.now - ((o1 % twoDays : Nat) : Int)).natAbs < 10 ^ 15 := by omega
    have hp : C.pubOf sk = some pk := S.sender
    obtain ⟨sl, s4⟩ : ∃ sl, sealOf (env h nc B C) D1.aux sk (D1.now - ((o1 % twoDays : Nat) : Int)) ct = .ok sl := by
      unfold sealOf
      simp only [env, hp, computeId, Host.b, Event.serialize, Res.bind_ok, ha.1]
      exact sign_done (h := h) hp (fun m => (hsign m).1) _
    have hseal : createSeal (env h nc B C) D1 rumor sk rpk = .ok sl := by
      unfold createSeal
      rw [hr', Res.bind_ok, hn1.1, s2', Res.bind_ok, ho1]
      simp only [pastTwoDays, Res.bind_ok]
      exact s4
    obtain ⟨pk2, id, sg, r, j1, j2, ⟨tt, j3⟩, j4, -⟩ := sealOf_ok s4
    have lid : id.length = 32 := by rw [j3]; exact S.crypto.hash tt
    have up := seal_json_length h.td h.fr lid (S.sizes.pub _ _ j1) (S.sizes.sig _ _ _ _ j2) htime c2
    rw [← j4] at up
    have hj2 : toJson (env h nc B C).build sl = .ok (print true 0 (toTree h.td h.fr sl)) := rfl
    obtain ⟨ct2, w2⟩ := encrypt_done (N := nc) (B := B) (nonce := n2) hmin hmax hk.2 (pos sl _ rfl)
      (by omega : (print true 0 (toTree h.td h.fr sl)).length ≤ 65535)
    have w2' : Nip44.encrypt (env h nc B C).nc (env h nc B C).b64 (env h nc B C).cfg (some n2) esk rpk (print true 0 (toTree h.td h.fr sl)) = .ok ct2 := w2
    have hp2 : C.pubOf esk = some epk := S.once
    obtain ⟨dm, hdm⟩ : ∃ dm, wrapOf (env h nc B C) D2.aux esk epk rpk (D2.now - ((o2 % twoDays : Nat) : Int)) [] ct2 = .ok dm := by
      unfold wrapOf
      have hroom := addTag_room (c' := (env h nc B C).cfg) (v := [c!"p", Hex.hexEncode rpk])
        (e := { zero with kind := 1059, createdAt := D2.now - ((o2 % twoDays : Nat) : Int), pubkey := epk, content := some ct2 }) (by simp)
        (fun c hc => by have := htags c hc; simp only [zero, List.length_nil]; omega)
      rw [hroom, Res.bind_ok]
      unfold pairTags
      rw [Res.bind_ok]
      simp only [env, computeId, Host.b, Event.serialize, Res.bind_ok, ha.2]
      exact sign_done (h := h) hp2 (fun m => (hsign m).2) _
    refine ⟨dm, ?_⟩
    unfold sendDm
    rw [hrum, Res.bind_ok, hseal, Res.bind_ok]
    unfold createWrap
    rw [Res.bind_ok, hj2, Res.bind_ok, hn2.1, w2', Res.bind_ok, ho2]
    simp only [pastTwoDays, Res.bind_ok]
    exact hdm

/-- The JSON text of a message without subject and reply whose text needs no escapes. -/
theorem plain_json_length {h : Host} {now : Int} {content sk rpk : Bytes} {createdAt : Int} {rumor : Event} {rt : Bytes} (hC : Event.Props.CryptoOK C)
    (hz : Sizes C) (hr : rpk.length = 32) (ht : (if createdAt ≠ 0 then createdAt else now).natAbs < 10 ^ 15) (hp : Nip47.Spec.Plain content)
    (hrum : dmRumor (env h nc B C) now content sk rpk none none createdAt = .ok rumor) (hrt : toJson h.b rumor = .ok rt) :
    content.length ≤ rt.length ∧ rt.length ≤ content.length + 500 := by
  obtain ⟨pk, t, r1, r2, -⟩ := Gift.Props.dmRumor_ok hrum
  have l2 := hz.pub _ _ r1
  have l1 : (C.sha256 t).length = 32 := hC.hash t
  simp only [Host.b, toJson, Res.ok.injEq] at hrt
  have lo := Gift.Props.text_le_json h.td h.fr rumor
  have hx : rumor.text = content := by rw [r2]; rfl
  rw [hrt, hx] at lo
  refine ⟨lo, ?_⟩
  rw [← hrt, r2]
  unfold toTree
  rw [numTok_small h.td h.fr ht, numTok_small h.td h.fr (n := ((14 : Nat) : Int)) (by decide)]
  have hpx : ∀ b : Bytes, (escape (Hex.hexEncode b)).length = 2 * b.length := by
    intro b
    rw [escape_hex, hexEncode_length]
  have htl : (Num.decInt (if createdAt ≠ 0 then createdAt else now)).length ≤ 20 := Num.decInt_length _ (by omega) (by omega)
  have e1 : (escape content).length = content.length := by rw [Nip47.Props.escape_plain hp]
  simp only [env, dmTags, print, printMembers, printElems, quoted, Event.text, Option.getD_some, List.map_cons, List.map_nil, if_true,
    List.append_nil, List.length_append, List.length_cons, List.length_nil, hpx, l1, l2, hr, e1, List.length_replicate]
  have k1 : (escape [105, 100]).length = 2 := by decide +kernel
  have k2 : (escape [112, 117, 98, 107, 101, 121]).length = 6 := by decide +kernel
  have k3 : (escape [99, 114, 101, 97, 116, 101, 100, 95, 97, 116]).length = 10 := by decide +kernel
  have k4 : (escape [107, 105, 110, 100]).length = 4 := by decide +kernel
  have k5 : (escape [116, 97, 103, 115]).length = 4 := by decide +kernel
  have k6 : (escape [99, 111, 110, 116, 101, 110, 116]).length = 7 := by decide +kernel
  have k7 : (escape [115, 105, 103]).length = 3 := by decide +kernel
  have k8 : (Num.decInt ((14 : Nat) : Int)).length = 2 := by decide +kernel
  have k9 : (tabs (0 + 1)).length = 1 := rfl
  have k0 : (tabs 0).length = 0 := rfl
  have k10 : (escape [112]).length = 1 := by decide +kernel
  simp only [k1, k2, k3, k4, k5, k6, k7, k8, k9, k0, k10]
  omega

/-! ## Examples -/

/-- Three hosts with the default configuration. -/
def std : Host := { Journey.Props.host with cfg := some Config.defaults }

theorem std_setting : Setting (env std Nip47.Props.sumNc Base64.codec Gift.Props.sized) (List.replicate 32 1) (List.replicate 32 1)
    (List.replicate 32 2) (List.replicate 32 2) (List.replicate 32 3) (List.replicate 32 3) where
  crypto := Gift.Props.sized_ok
  sizes := Gift.Props.sized_sizes
  base64 := Gift.Props.codec_standard
  cfg := by intro c hc; cases hc; unfold Config.Spec.InRange; decide
  limits := by intro c hc; cases hc; decide
  sender := rfl
  once := rfl
  recipient := rfl
  seal_ := Nip47.Props.sumNc_ok _ _
  wrap := Nip47.Props.sumNc_ok _ _

example : Wider std.cfg std.cfg := ⟨Nat.le_refl _, Nat.le_refl _, by intro c hc; cases hc; decide⟩
example : Reads std := by intro c hc; cases hc; decide
example : Limited std := ⟨_, rfl, by decide⟩
example : Renum std.r := Msg.Props.toy_renum

/-- A short message with subject and reply is sent with the default limits. -/
example : (sendDm (env std Nip47.Props.sumNc Base64.codec Gift.Props.sized) Gift.Props.draw Gift.Props.draw
    (.ok (List.replicate 32 2, List.replicate 32 2)) (c!"hi \"you\"") (List.replicate 32 1) (List.replicate 32 3) (some (c!"greeting"))
    (some (List.replicate 32 9)) 0).isOk = true := by
  decide +kernel

/-- C202 fails: with the default configuration everywhere a message of 33000 letters is sent, and nobody gets it. -/
theorem C202_long_text_refuted : ∃ dm t, sendDm (env std Nip47.Props.sumNc Base64.codec Gift.Props.sized) Gift.Props.draw Gift.Props.draw
      (.ok (List.replicate 32 2, List.replicate 32 2)) (List.replicate 33000 0x61) (List.replicate 32 1) (List.replicate 32 3) none none 0 = .ok dm ∧
    Relay.sendEvent std.b dm = .ok t ∧ ∀ k open_, forward Gift.Props.sized std k open_ t = [] := by
  have hp : Nip47.Spec.Plain (List.replicate 33000 0x61) := by
    intro c hc
    rw [(List.mem_replicate.1 hc).2]
    decide
  have hz : Gift.Props.sized.pubOf (List.replicate 32 1) = some (List.replicate 32 1) := rfl
  obtain ⟨rumor, hrum⟩ : ∃ rumor, dmRumor (env std Nip47.Props.sumNc Base64.codec Gift.Props.sized) Gift.Props.draw.now (List.replicate 33000 0x61)
      (List.replicate 32 1) (List.replicate 32 3) none none 0 = .ok rumor := by
    unfold dmRumor
    simp only [env, hz, createRumor, computeId, Host.b, Event.serialize, Res.bind_ok]
    exact ⟨_, addAll_room _ _ (dmTags_nonempty _ none none).1 (by intro c hc; cases hc; decide)⟩
  have hrt : toJson std.b rumor = .ok (print true 0 (toTree std.td std.fr rumor)) := rfl
  obtain ⟨l1, l2⟩ := plain_json_length Gift.Props.sized_ok Gift.Props.sized_sizes (by decide) (by decide) hp hrum hrt
  rw [List.length_replicate] at l1 l2
  have hn : Gift.Props.draw.nonce = some (List.replicate 32 5) ∧ (List.replicate 32 (5 : UInt8)).length = 32 := ⟨rfl, rfl⟩
  obtain ⟨dm, hs⟩ := (C202_sends (D1 := Gift.Props.draw) (D2 := Gift.Props.draw) std_setting (by decide) (by decide) (by intro c hc; cases hc; decide) hn hn
    ⟨by decide, by decide⟩ ⟨rfl, rfl⟩ (by decide) ⟨rfl, rfl⟩ (fun m => ⟨rfl, rfl⟩) hrum hrt).2 (by omega)
  obtain ⟨⟨t, h1, h2⟩, -⟩ := C202_too_long_refuted (relay := std) Msg.Props.toy_renum std_setting ⟨_, rfl, by decide⟩ hn hn (by decide) (by decide) hrum hrt
    (by omega) hs
  exact ⟨dm, t, hs, h1, h2⟩

end Nostr.Journey.Mail.Props
