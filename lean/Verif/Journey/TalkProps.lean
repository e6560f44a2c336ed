import Verif.Journey.Talk
import Verif.Journey.MailProps
import Verif.Nip46.Props
import Verif.Nip47.Uri

/-! # Property C204: requests and answers reach the other side through a relay -/

namespace Nostr.Journey.Talk.Props
open Nostr Nostr.Event Nostr.Json Nostr.Journey.Spec Nostr.Journey.Talk Nostr.Journey.Mail.Props

variable {nc : Nip44.Nc} {B : Nip44.B64} {C : Crypto}

/-! ## Lemmas -/

/-- The length of a text encrypted. -/
theorem encrypt_length {E : Nip47.Env} {sk pk rsk rpk : Bytes} (S : Setting E sk pk rsk rpk) {nonce m t : Bytes} (hn : nonce.length = 32)
    (h : Nip44.encrypt E.nc E.b64 E.cfg (some nonce) sk rpk m = .ok t) :
    (m.length ≤ 45056 ↔ t.length ≤ 65536) ∧ Nip47.Spec.Plain t ∧ m.length ≤ 65535 := by
  obtain ⟨h1, h2⟩ := Mail.Props.encrypt_length (E := ⟨E.nc, E.b64, E.crypto, E.cfg, E.build, ⟨fun _ => 0, true⟩⟩) S.base64 S.keys S.cfg hn h
  refine ⟨?_, ?_, h1⟩
  · rw [h2]
    constructor
    · intro hle
      have h3 := Nip44.paddedLen_mono (a := m.length) (b := 45056) hle (by decide)
      have h4 : Nip44.paddedLen 45056 = 45056 := by decide +kernel
      omega
    · intro hle
      refine Nat.le_of_not_lt fun hlt => ?_
      have h3 := Nip44.paddedLen_mono (a := 45057) (b := m.length) (by omega) (by omega)
      have h4 : Nip44.paddedLen 45057 = 49152 := by decide +kernel
      omega
  · obtain ⟨_, _, _, _, _, _, _, rfl⟩ := Nip44.Props.encrypt_payload S.keys S.cfg hn h
    exact Gift.standard_plain S.base64 _

/-- A draft of an encrypted event, as it is before signing. -/
structure Draft (x : Event) (kind : Nat) (now : Int) (peer ct : Bytes) (more : List (List Bytes)) : Prop where
  kind : x.kind = kind
  time : x.createdAt = now
  tags : x.tags = [c!"p", Hex.hexEncode peer] :: more
  content : x.content = some ct

/-- What is known of a signed event of this form. -/
theorem signed_shape {h : Host} {sk pk rsk rpk : Bytes} (S : Setting (env h nc B C) sk pk rsk rpk) {x e : Event} {kind : Nat} {now : Int}
    {ct : Bytes} {more : List (List Bytes)} (d : Draft x kind now rpk ct more) (hk : kind < 65536) (hm : ∀ t ∈ more, t ≠ [] ∧ ∀ v ∈ t, CStr v)
    (ht : now.natAbs < 10 ^ 15) (hp : Nip47.Spec.Plain ct) {aux : Option Bytes} (hs : sign C h.b aux sk x = .ok e) :
    Event.Spec.WF e ∧ e.createdAt = now ∧ e.kind = kind ∧ e.tags = [c!"p", Hex.Spec.hexText rpk] :: more ∧ e.content = some ct ∧ e.pubkey = pk := by
  obtain ⟨pk', t', r', sig, g1, g2, g3, g4, g5⟩ := Gift.sign_ok hs
  have hpk : pk' = pk := by
    have := S.sender
    simp only [env] at this
    rw [this] at g1
    exact (Option.some.inj g1).symm
  have htx : e.content = some ct := by rw [g5]; exact d.content
  have htags : e.tags = [c!"p", Hex.Spec.hexText rpk] :: more := by rw [g5, ← Hex.hexEncode_eq]; exact d.tags
  refine ⟨⟨?_, ?_, ?_, ?_, ?_, ?_, ?_⟩, by rw [g5]; exact d.time, by rw [g5]; exact d.kind, htags, htx, by rw [g5]; exact hpk⟩
  · rw [g5]; exact S.crypto.hash t'
  · rw [g5]; exact S.sizes.pub _ _ g1
  · rw [g5]; exact S.sizes.sig _ _ _ _ g4
  · have : e.createdAt = now := by rw [g5]; exact d.time
    rw [this]; constructor <;> omega
  · have : e.kind = kind := by rw [g5]; exact d.kind
    rw [this]; exact hk
  · rw [htags]
    intro t ht
    rcases List.mem_cons.1 ht with rfl | ht
    · refine ⟨by simp, ?_⟩
      intro v hv
      simp only [List.mem_cons, List.not_mem_nil, or_false] at hv
      rcases hv with rfl | rfl
      · decide
      · rw [← Hex.hexEncode_eq]; exact hexText_cstr _
    · exact hm t ht
  · unfold Event.text
    rw [htx]
    exact Nip47.Props.plain_cstr hp

theorem inbox_matches {kind : Nat} {pk : Bytes} {e : Event} {more : List (List Bytes)} (hk : e.kind = kind)
    (ht : e.tags = [c!"p", Hex.Spec.hexText pk] :: more) : Filter.matches_ (inbox kind pk) e = true := by
  unfold Filter.matches_ inbox
  simp [Filter.empty, hk, Filter.tagMatch, ht, RelayProto.tagValuesN, Filter.maxValues]

/-- An event of this form whose content is within the default limit reaches everybody who asked for what is addressed to the key. -/
theorem reaches {author relay client : Host} (hr : Renum relay.r) (hc : Renum client.r) (hC : Event.Props.CryptoOK C) {x e : Event} {kind : Nat}
    {now : Int} {rpk ct : Bytes} {more : List (List Bytes)} (hk : kind < 65536) (ht : now.natAbs < 10 ^ 15) (hle : ct.length ≤ 65536)
    (hml : more.length ≤ 2) (hrelay : Reads relay) (hclient : Reads client) {aux : Option Bytes} {sk : Bytes} (hs : sign C author.b aux sk x = .ok e)
    (w : Event.Spec.WF e ∧ e.createdAt = now ∧ e.kind = kind ∧ e.tags = [c!"p", Hex.Spec.hexText rpk] :: more ∧ e.content = some ct)
    (open_ : List (Bytes × List Filter.Filter)) {id : Bytes} {fs : List Filter.Filter} (ho : (id, fs) ∈ open_) (hf : inbox kind rpk ∈ fs)
    (hid : CStr id) (hl : id.length ≤ 64) (hasCb : Bool) (past : List Relay.Spec.Op) {cb : Nat}
    (hcb : (Relay.Spec.stack id past).head? = some (some cb)) :
    ∃ t n, Relay.sendEvent author.b e = .ok t ∧ ∀ k, n < k → ∃ m, (id, m) ∈ forward C relay k open_ t ∧
      ∀ cs chunk, cs.flatten = m → (∀ c ∈ cs, c.length ≤ chunk) → m.length + chunk + 1024 ≤ 10485760 →
        arrive client hasCb past cs = some [.event cb e] ∧ verify C client.b e = .ok () := by
  obtain ⟨w, w1, w2, w3, w4⟩ := w
  have hx : e.text = ct := by unfold Event.text; rw [w4]; rfl
  have adm : ∀ h : Host, Reads h → h.Admits e := by
    intro h hh c hc
    have := hh c hc
    rw [w3, hx]
    simp only [List.length_cons]
    exact ⟨by omega, Nat.le_trans hle this.2⟩
  have hd : delivered e = e := by unfold delivered; rw [hx, ← w4]
  have hmatch : Filter.filtersMatch fs e = true := List.any_eq_true.2 ⟨inbox kind rpk, hf, inbox_matches w2 w3⟩
  obtain ⟨t, n, a1, a2⟩ := Journey.Props.C198_delivered_partial hC (author := author) hr hc hs w (by rw [w1]; exact ht) (adm relay hrelay)
    (adm client hclient) open_ ho hmatch hid hl hasCb past hcb
  refine ⟨t, n, a1, fun k hk => ?_⟩
  obtain ⟨m, b1, b2⟩ := a2 k hk
  refine ⟨m, b1, fun cs chunk c1 c2 c3 => ?_⟩
  obtain ⟨e1, -, -, -, e2⟩ := b2 cs chunk c1 c2 c3
  rw [hd] at e1 e2
  exact ⟨e1, e2⟩

/-- One whose content is longer is passed on to nobody. -/
theorem lost {author relay : Host} (hr : Renum relay.r) {e : Event} (w : Event.Spec.WF e) (ht : e.createdAt.natAbs < 10 ^ 15)
    (hlt : 65536 < e.text.length) (hrelay : Mail.Limited relay) :
    ∃ t, Relay.sendEvent author.b e = .ok t ∧ ∀ k open_, forward C relay k open_ t = [] := by
  obtain ⟨c, hc, hle⟩ := hrelay
  have hno := fun td fr => fromTree_refused relay.P td fr w ⟨c, hc, Nat.lt_of_le_of_lt hle hlt⟩
  obtain ⟨g1, g2⟩ := good_toTree (td := author.td) (fr := author.fr) w ht
  obtain ⟨t, h1, h2⟩ := Journey.Props.sent (a := author) w ht
  refine ⟨t, h1, fun k open_ => ?_⟩
  have h3 := parse_print false 0 _ g1 g2 [] (by simp [Stop])
  rw [List.append_nil] at h3
  unfold forward
  simp only [Msg.clientParse, Nat.lt_irrefl, gt_iff_lt, if_false, h2, Msg.ofRoot, asArr, asStr, if_true, Msg.eventArg, fromJson, Host.b,
    reprint, Journey.Props.mapNum_toTree hr author.td author.fr w ht, h3, hno]
  rfl

/-- A setting at one host is one at another. -/
theorem Setting.move {a b : Host} {sk pk rsk rpk : Bytes} (S : Setting (env a nc B C) sk pk rsk rpk) (hb : Nip44.Spec.CfgOK b.cfg) :
    Setting (env b nc B C) sk pk rsk rpk := ⟨S.crypto, S.sizes, S.base64, hb, S.sender, S.keys⟩

theorem letter_ok {E : Nip47.Env} {kind : Nat} {now : Int} {nonce aux : Option Bytes} {sk peer text : Bytes} {more : List (List Bytes)} {e : Event}
    (h : letter E kind now nonce aux sk peer text more = .ok e) :
    ∃ ct x, Nip44.encrypt E.nc E.b64 E.cfg nonce sk peer text = .ok ct ∧ Draft x kind now peer ct more ∧ sign E.crypto E.build aux sk x = .ok e := by
  unfold letter at h
  obtain ⟨ct, h1, h⟩ := Res.bind_eq_ok.1 h
  obtain ⟨x, h2, h⟩ := Res.bind_eq_ok.1 h
  refine ⟨ct, x, h1, ?_, h⟩
  rw [(Gift.Props.addAll_ok h2).1]
  exact ⟨rfl, rfl, rfl, rfl⟩

theorem response_ok {E : Nip47.Env} {r : Bytes → Json} {now : Int} {nonce aux : Option Bytes} {p : Nip46.Response} {sk peer : Bytes} {e : Event}
    (ht : ∀ c ∈ E.cfg, 0 < c.maxTags) (h : Nip46.createResponse E r now nonce aux p sk peer = .ok e) :
    ∃ ct x, Nip44.encrypt E.nc E.b64 E.cfg nonce sk peer (Nip46.responseText r p) = .ok ct ∧ Draft x 24133 now peer ct [] ∧
      sign E.crypto E.build aux sk x = .ok e := by
  unfold Nip46.createResponse at h
  obtain ⟨ct, h1, h⟩ := Res.bind_eq_ok.1 h
  obtain ⟨x, h2, h⟩ := Res.bind_eq_ok.1 h
  refine ⟨ct, x, h1, ?_, h⟩
  obtain ⟨t, -, rfl⟩ := Gift.computeId_ok h2
  have hroom := addTag_room (c' := E.cfg) (v := [c!"p", Hex.hexEncode peer]) (e := { zero with kind := Nip46.kind46, createdAt := now, content := some ct })
    (by simp) (fun c hc => by have := ht c hc; simp only [zero, List.length_nil]; omega)
  unfold Nip46.addP
  rw [hroom]
  exact ⟨rfl, rfl, rfl, rfl⟩

theorem request_ok {E : Nip47.Env} {now : Int} {nonce aux : Option Bytes} {sk wallet method ps : Bytes} {e : Event}
    (h : Nip47.request E now nonce aux sk wallet method ps = .ok e) :
    ∃ text ct x, Nip47.payload method ps = .ok text ∧ Nip44.encrypt E.nc E.b64 E.cfg nonce sk wallet text = .ok ct ∧
      Draft x 23194 now wallet ct [[c!"encryption", c!"nip44_v2"]] ∧ sign E.crypto E.build aux sk x = .ok e := by
  unfold Nip47.request at h
  split at h
  · cases h
  obtain ⟨e1, h1, h⟩ := Res.bind_eq_ok.1 h
  obtain ⟨e2, h2, h⟩ := Res.bind_eq_ok.1 h
  obtain ⟨text, h3, h⟩ := Res.bind_eq_ok.1 h
  obtain ⟨ct, h4, h⟩ := Res.bind_eq_ok.1 h
  obtain ⟨x, h5, h⟩ := Res.bind_eq_ok.1 h
  refine ⟨text, ct, x, h3, h4, ?_, h⟩
  obtain ⟨t, -, rfl⟩ := Gift.computeId_ok h5
  obtain ⟨g1, -⟩ := Gift.addTag_ok h1
  obtain ⟨g2, -⟩ := Gift.addTag_ok h2
  rw [g2, g1]
  exact ⟨rfl, rfl, rfl, rfl⟩

theorem hexFor_self (b : Bytes) : Nip47.Spec.HexFor (Hex.Spec.hexText b) b := by
  unfold Nip47.Spec.HexFor
  exact Hex.lowerHex_hexText b

/-! ## C204: the signer -/

/-- **C204, requests to a signer** (partial: ids of up to 64 and methods of up to 31 bytes, C71; requests of up to 45056 bytes,
`C204_long_refuted`). A client of a remote signer encrypts a request, publishes it; the signer that asked a relay for requests to its key
gets it in exactly one callback, its signature verifies, and `nostr_nip46_parse_request` reads the id, the method, the parameters and who
asks. -/
theorem C204_signer_request_partial {author relay signer : Host} (hr : Renum relay.r) (hc : Renum signer.r) {csk client sk pk : Bytes}
    (S : Setting (env author nc B C) csk client sk pk) (hw : Mail.Wider author.cfg signer.cfg) (hcfg : Nip44.Spec.CfgOK signer.cfg)
    (hrelay : Reads relay) (hsigner : Reads signer) {now : Int} (ht : now.natAbs < 10 ^ 15) {nonce : Bytes} {aux : Option Bytes}
    (hn : nonce.length = 32) {rid method : Bytes} {ps : List Bytes} (h1 : CStr rid) (h2 : CStr method) (h3 : ∀ s ∈ ps, CStr s)
    (h4 : rid.length ≤ 64) (h5 : method.length ≤ 31) {text : Bytes}
    (htext : text = print false 0 (.obj [(c!"id", .str rid), (c!"method", .str method), (c!"params", .arr (ps.map .str))]))
    (h6 : text.length ≤ 45056) {e : Event} (hs : letter (env author nc B C) 24133 now (some nonce) aux csk pk text [] = .ok e)
    (open_ : List (Bytes × List Filter.Filter)) {id : Bytes} {fs : List Filter.Filter} (ho : (id, fs) ∈ open_) (hf : inbox 24133 pk ∈ fs)
    (hid : CStr id) (hl : id.length ≤ 64) (hasCb : Bool) (past : List Relay.Spec.Op) {cb : Nat}
    (hcb : (Relay.Spec.stack id past).head? = some (some cb)) :
    ∃ t n, Relay.sendEvent author.b e = .ok t ∧ ∀ k, n < k → ∃ m, (id, m) ∈ forward C relay k open_ t ∧
      ∀ cs chunk, cs.flatten = m → (∀ c ∈ cs, c.length ≤ chunk) → m.length + chunk + 1024 ≤ 10485760 →
        ∃ got q, arrive signer hasCb past cs = some [.event cb got] ∧ verify C signer.b got = .ok () ∧
          Nip46.parseRequest (env signer nc B C) signer.r got sk = .ok ⟨rid, method, some q, client⟩ ∧ parse q = some (.arr (ps.map .str)) := by
  obtain ⟨ct, x, e1, d, e2⟩ := letter_ok hs
  obtain ⟨l1, l2, -⟩ := encrypt_length S hn e1
  obtain ⟨w, w1, w2, w3, w4, w5⟩ := signed_shape S d (by decide) (by intro t ht; cases ht) ht l2 e2
  obtain ⟨t, n, a1, a2⟩ := reaches (author := author) hr hc S.crypto (by decide) ht (l1.1 h6) (by simp) hrelay hsigner e2 ⟨w, w1, w2, w3, w4⟩ open_ ho hf
    hid hl hasCb past hcb
  have e1' : Nip44.encrypt (env signer nc B C).nc (env signer nc B C).b64 (env signer nc B C).cfg (some nonce) csk pk text = .ok ct := encrypt_wider hw e1
  rw [htext] at e1' h6
  obtain ⟨q, q1, q2⟩ := Nip46.Props.C71_standard_request (E := env signer nc B C) hc S.keys S.base64.ok hcfg hn h1 h2 h3 h4 h5 (by omega) e1' w2 w4 w5
  refine ⟨t, n, a1, fun k hk => ?_⟩
  obtain ⟨m, b1, b2⟩ := a2 k hk
  refine ⟨m, b1, fun cs chunk c1 c2 c3 => ?_⟩
  obtain ⟨f1, f2⟩ := b2 cs chunk c1 c2 c3
  exact ⟨e, q, f1, f2, q1, q2⟩

/-- A response that one host makes, another with wider limits would make in the same form. -/
theorem response_hosts {a b : Host} (hw : Mail.Wider a.cfg b.cfg) (ha : ∀ c ∈ a.cfg, 0 < c.maxTags) {r : Bytes → Json} {now : Int}
    (ht : now.natAbs < 10 ^ 15) {nonce aux : Option Bytes} {p : Nip46.Response} {sk peer : Bytes} {e : Event}
    (h : Nip46.createResponse (env a nc B C) r now nonce aux p sk peer = .ok e) :
    Nip46.createResponse (env b nc B C) r now nonce aux p sk peer = .ok e := by
  unfold Nip46.createResponse at h ⊢
  obtain ⟨ct, h1, h⟩ := Res.bind_eq_ok.1 h
  obtain ⟨x, h2, h⟩ := Res.bind_eq_ok.1 h
  have h1' : Nip44.encrypt (env b nc B C).nc (env b nc B C).b64 (env b nc B C).cfg nonce sk peer (Nip46.responseText r p) = .ok ct := encrypt_wider hw h1
  have room : ∀ c' : Option Config.Config, (∀ c ∈ c', 0 < c.maxTags) → Nip46.addP c' { zero with kind := Nip46.kind46, createdAt := now, content := some ct } peer =
      { zero with kind := Nip46.kind46, createdAt := now, content := some ct, tags := [[c!"p", Hex.hexEncode peer]] } := by
    intro c' hc'
    have hroom := addTag_room (c' := c') (v := [c!"p", Hex.hexEncode peer]) (e := { zero with kind := Nip46.kind46, createdAt := now, content := some ct })
      (by simp) (fun c hc => by have := hc' c hc; simp only [zero, List.length_nil]; omega)
    unfold Nip46.addP
    rw [hroom]
    rfl
  have ra := room (env a nc B C).cfg ha
  have rb := room (env b nc B C).cfg (fun c hc => by have := hw.tags c hc; omega)
  rw [h1', Res.bind_ok, rb]
  rw [ra] at h2
  have h2' : computeId C a.b { zero with kind := Nip46.kind46, createdAt := now, content := some ct, tags := [[c!"p", Hex.hexEncode peer]] } = .ok x := h2
  show computeId C b.b _ >>= _ = _
  rw [computeId_hosts C b a (by simp only; decide) ht, h2', Res.bind_ok]
  obtain ⟨t, -, rfl⟩ := Gift.computeId_ok h2'
  show sign C b.b _ _ _ = _
  rw [sign_hosts C b a _ _ (by simp only; decide) ht]
  exact h

/-- **C204, answers of a signer** (partial: answers of up to 45056 bytes, `C204_long_refuted`). What `nostr_nip46_create_response` makes and the
signer publishes reaches the client that asked a relay for answers to its key, in exactly one callback; its signature verifies there, and it
decrypts to the id and the error or the result that was given. -/
theorem C204_signer_answer_partial {signer relay client : Host} (hr : Renum relay.r) (hc : Renum client.r) {sk pk csk cpk : Bytes}
    (S : Setting (env signer nc B C) sk pk csk cpk) (hw : Mail.Wider signer.cfg client.cfg) (hcfg : Nip44.Spec.CfgOK client.cfg)
    (hrelay : Reads relay) (hclient : Reads client) {r : Bytes → Json} (hnum : Renum r) {now : Int} (ht : now.natAbs < 10 ^ 15) {nonce : Bytes}
    {aux : Option Bytes} (hn : nonce.length = 32) {p : Nip46.Response} (hp : CStr p.id) (h6 : (Nip46.responseText r p).length ≤ 45056) {e : Event}
    (hs : Nip46.createResponse (env signer nc B C) r now (some nonce) aux p sk cpk = .ok e)
    (open_ : List (Bytes × List Filter.Filter)) {id : Bytes} {fs : List Filter.Filter} (ho : (id, fs) ∈ open_) (hf : inbox 24133 cpk ∈ fs)
    (hid : CStr id) (hl : id.length ≤ 64) (hasCb : Bool) (past : List Relay.Spec.Op) {cb : Nat}
    (hcb : (Relay.Spec.stack id past).head? = some (some cb)) :
    ∃ t n, Relay.sendEvent signer.b e = .ok t ∧ ∀ k, n < k → ∃ m, (id, m) ∈ forward C relay k open_ t ∧
      ∀ cs chunk, cs.flatten = m → (∀ c ∈ cs, c.length ≤ chunk) → m.length + chunk + 1024 ≤ 10485760 →
        ∃ got text, arrive client hasCb past cs = some [.event cb got] ∧ verify C client.b got = .ok () ∧ got.pubkey = pk ∧
          Nip44.decrypt nc B client.cfg csk got.pubkey got.text = .ok text ∧
          (∀ s, p.error = some s → CStr s → parse text = some (.obj [(c!"id", .str p.id), (c!"error", .str s)])) ∧
          (∀ s, p.error = none → p.result = some s → CStr s → parse s = none → parse text = some (.obj [(c!"id", .str p.id), (c!"result", .str s)])) := by
  have ha : ∀ c ∈ signer.cfg, 0 < c.maxTags := fun c hc => (S.cfg c hc).2.2.2.2.2.1.1
  obtain ⟨ct, x, e1, d, e2⟩ := response_ok (E := env signer nc B C) ha hs
  obtain ⟨l1, l2, -⟩ := encrypt_length S hn e1
  obtain ⟨w, w1, w2, w3, w4, w5⟩ := signed_shape S d (by decide) (by intro t ht; cases ht) ht l2 e2
  obtain ⟨t, n, a1, a2⟩ := reaches (author := signer) hr hc S.crypto (by decide) ht (l1.1 h6) (by simp) hrelay hclient e2 ⟨w, w1, w2, w3, w4⟩ open_ ho hf
    hid hl hasCb past hcb
  obtain ⟨-, r2, -, -, -, text, r3, r4, -, r5, -⟩ := Nip46.Props.C71_response_partial (E := env client nc B C) S.crypto S.keys S.base64.ok hcfg
    (fun c hc => (hcfg c hc).2.2.2.2.2.1.1) S.sender hnum hn (by omega) hp (response_hosts hw ha ht hs)
  refine ⟨t, n, a1, fun k hk => ?_⟩
  obtain ⟨m, b1, b2⟩ := a2 k hk
  refine ⟨m, b1, fun cs chunk c1 c2 c3 => ?_⟩
  obtain ⟨f1, f2⟩ := b2 cs chunk c1 c2 c3
  exact ⟨e, text, f1, f2, r2, by rw [r2]; exact r3, r4, r5⟩

/-- **C204 fails for long answers**: an answer of more than 45056 bytes is made and published without an error, and a relay with the default
content limit passes it on to nobody. -/
theorem C204_long_refuted {signer relay : Host} (hr : Renum relay.r) {sk pk csk cpk : Bytes} (S : Setting (env signer nc B C) sk pk csk cpk)
    (hrelay : Mail.Limited relay) {r : Bytes → Json} {now : Int} (ht : now.natAbs < 10 ^ 15) {nonce : Bytes} {aux : Option Bytes}
    (hn : nonce.length = 32) {p : Nip46.Response} (h6 : 45056 < (Nip46.responseText r p).length) {e : Event}
    (hs : Nip46.createResponse (env signer nc B C) r now (some nonce) aux p sk cpk = .ok e) :
    ∃ t, Relay.sendEvent signer.b e = .ok t ∧ ∀ k open_, forward C relay k open_ t = [] := by
  have ha : ∀ c ∈ signer.cfg, 0 < c.maxTags := fun c hc => (S.cfg c hc).2.2.2.2.2.1.1
  obtain ⟨ct, x, e1, d, e2⟩ := response_ok (E := env signer nc B C) ha hs
  obtain ⟨l1, l2, -⟩ := encrypt_length S hn e1
  obtain ⟨w, w1, w2, w3, w4, w5⟩ := signed_shape S d (by decide) (by intro t ht; cases ht) ht l2 e2
  refine lost hr w (by rw [w1]; exact ht) ?_ hrelay
  have hx : e.text = ct := by unfold Event.text; rw [w4]; rfl
  rw [hx]
  omega

/-! ## C204: the wallet -/

/-- **C204, requests to a wallet** (partial: methods and parameters as in C98). What `nostr_nip47_create_request_event` makes and the client
publishes reaches the wallet that asked a relay for requests to its key, in exactly one callback; its signature verifies there, and it
decrypts to the method and the parameters that were given. -/
theorem C204_wallet_request_partial {client relay wallet : Host} (hr : Renum relay.r) (hc : Renum wallet.r) {sk pk wsk wpk : Bytes}
    (S : Setting (env client nc B C) sk pk wsk wpk) (hw : Mail.Wider client.cfg wallet.cfg) (hcfg : Nip44.Spec.CfgOK wallet.cfg)
    (hrelay : Reads relay) (hwallet : Reads wallet) {now : Int} (ht : now.natAbs < 10 ^ 15) {nonce : Bytes} {aux : Option Bytes}
    (hn : nonce.length = 32) {method : Bytes} {j : Json} (h1 : CStr method) (h2 : 6 * method.length ≤ 255) (hg : Good j)
    (hh : height j < nestingLimit) (hlen : 6 * method.length + (print false 0 j).length ≤ 8168) {e : Event}
    (hs : Nip47.request (env client nc B C) now (some nonce) aux sk wpk method (print false 0 j) = .ok e)
    (open_ : List (Bytes × List Filter.Filter)) {id : Bytes} {fs : List Filter.Filter} (ho : (id, fs) ∈ open_) (hf : inbox 23194 wpk ∈ fs)
    (hid : CStr id) (hl : id.length ≤ 64) (hasCb : Bool) (past : List Relay.Spec.Op) {cb : Nat}
    (hcb : (Relay.Spec.stack id past).head? = some (some cb)) :
    ∃ t n, Relay.sendEvent client.b e = .ok t ∧ ∀ k, n < k → ∃ m, (id, m) ∈ forward C relay k open_ t ∧
      ∀ cs chunk, cs.flatten = m → (∀ c ∈ cs, c.length ≤ chunk) → m.length + chunk + 1024 ≤ 10485760 →
        ∃ got text, arrive wallet hasCb past cs = some [.event cb got] ∧ verify C wallet.b got = .ok () ∧ got.pubkey = pk ∧
          Nip44.decrypt nc B wallet.cfg wsk got.pubkey got.text = .ok text ∧
          parse text = some (.obj [(c!"method", .str method), (c!"params", j)]) := by
  obtain ⟨text, ct, x, e0, e1, d, e2⟩ := request_ok hs
  obtain ⟨l1, l2, -⟩ := encrypt_length S hn e1
  have htl : text.length ≤ 8191 := by
    unfold Nip47.payload at e0
    split at e0
    · cases e0
    · cases e0; exact List.length_take_le _ _
  obtain ⟨w, w1, w2, w3, w4, w5⟩ := signed_shape S d (by decide) (by
    intro t ht
    rw [List.mem_singleton] at ht
    rw [ht]
    exact ⟨by simp, by decide⟩) ht l2 e2
  obtain ⟨t, n, a1, a2⟩ := reaches (author := client) hr hc S.crypto (by decide) ht (l1.1 (by omega)) (by simp) hrelay hwallet e2 ⟨w, w1, w2, w3, w4⟩
    open_ ho hf hid hl hasCb past hcb
  obtain ⟨-, -, -, -, -, text', r3, r4⟩ := Nip47.Props.C98_request_partial (E := env client nc B C) S.crypto S.keys S.base64.ok S.cfg S.sender hn h1 h2
    hg hh hlen hs
  have hx : e.text = ct := by unfold Event.text; rw [w4]; rfl
  have e1' : Nip44.encrypt nc B wallet.cfg (some nonce) sk wpk text = .ok ct := encrypt_wider hw e1
  have k1 := Nip44.Props.C15_roundtrip_partial S.keys S.base64.ok S.cfg hn (by omega) e1
  have k2 := Nip44.Props.C15_roundtrip_partial S.keys S.base64.ok hcfg hn (by omega) e1'
  have k3 : text' = text := by
    rw [hx] at r3
    rw [r3] at k1
    cases k1
    rfl
  rw [k3] at r4
  refine ⟨t, n, a1, fun k hk => ?_⟩
  obtain ⟨m, b1, b2⟩ := a2 k hk
  refine ⟨m, b1, fun cs chunk c1 c2 c3 => ?_⟩
  obtain ⟨f1, f2⟩ := b2 cs chunk c1 c2 c3
  exact ⟨e, text, f1, f2, w5, by rw [w5, hx]; exact k2, r4⟩

/-- **C204, notifications of a wallet** (partial: notifications of up to 45056 bytes). What a wallet encrypts to the client and publishes
reaches the client that asked a relay for it, in exactly one callback; its signature verifies there, and
`nostr_nip47_parse_notification_event` reads the type and the notification. -/
theorem C204_notification_partial {wallet relay client : Host} (hr : Renum relay.r) (hc : Renum client.r) {wsk wpk sk pk : Bytes}
    (S : Setting (env wallet nc B C) wsk wpk sk pk) (hw : Mail.Wider wallet.cfg client.cfg) (hcfg : Nip44.Spec.CfgOK client.cfg)
    (hrelay : Reads relay) (hclient : Reads client) {now : Int} (ht : now.natAbs < 10 ^ 15) {nonce : Bytes} {aux : Option Bytes}
    (hn : nonce.length = 32) {type : Bytes} {j : Json} (h1 : CStr type) (hg : Good j) (hh : height j < nestingLimit) {text : Bytes}
    (htext : text = print false 0 (.obj [(c!"notification_type", .str type), (c!"notification", j)])) (h6 : text.length ≤ 45056) {e : Event}
    (hs : letter (env wallet nc B C) 23197 now (some nonce) aux wsk pk text [] = .ok e)
    (open_ : List (Bytes × List Filter.Filter)) {id : Bytes} {fs : List Filter.Filter} (ho : (id, fs) ∈ open_) (hf : inbox 23197 pk ∈ fs)
    (hid : CStr id) (hl : id.length ≤ 64) (hasCb : Bool) (past : List Relay.Spec.Op) {cb : Nat}
    (hcb : (Relay.Spec.stack id past).head? = some (some cb)) :
    ∃ t n, Relay.sendEvent wallet.b e = .ok t ∧ ∀ k, n < k → ∃ m, (id, m) ∈ forward C relay k open_ t ∧
      ∀ cs chunk, cs.flatten = m → (∀ c ∈ cs, c.length ≤ chunk) → m.length + chunk + 1024 ≤ 10485760 →
        ∃ got, arrive client hasCb past cs = some [.event cb got] ∧ verify C client.b got = .ok () ∧
          Nip47.parseNotification (env client nc B C) client.r got sk = .ok (some type, some (reprint client.r j)) := by
  obtain ⟨ct, x, e1, d, e2⟩ := letter_ok hs
  obtain ⟨l1, l2, -⟩ := encrypt_length S hn e1
  obtain ⟨w, w1, w2, w3, w4, w5⟩ := signed_shape S d (by decide) (by intro t ht; cases ht) ht l2 e2
  obtain ⟨t, n, a1, a2⟩ := reaches (author := wallet) hr hc S.crypto (by decide) ht (l1.1 h6) (by simp) hrelay hclient e2 ⟨w, w1, w2, w3, w4⟩ open_ ho hf
    hid hl hasCb past hcb
  have e1' : Nip44.encrypt (env client nc B C).nc (env client nc B C).b64 (env client nc B C).cfg (some nonce) wsk pk text = .ok ct := encrypt_wider hw e1
  rw [htext] at e1' h6
  have q1 := Nip47.Props.C101_notification_partial (E := env client nc B C) (r := client.r) S.keys S.base64.ok hcfg hn h1 hg hh (by omega) e1' w2 w4 w5
  refine ⟨t, n, a1, fun k hk => ?_⟩
  obtain ⟨m, b1, b2⟩ := a2 k hk
  refine ⟨m, b1, fun cs chunk c1 c2 c3 => ?_⟩
  obtain ⟨f1, f2⟩ := b2 cs chunk c1 c2 c3
  exact ⟨e, f1, f2, q1⟩

/-- No MAC under the key that the client shares with itself is one under the key that it shares with the wallet. -/
def Separate (N : Nip44.Nc) (sk pk wpk : Bytes) : Prop :=
  ∀ k k', N.conv sk pk = some k → N.conv sk wpk = some k' → ∀ n x, N.mac (N.macKey k' n) x ≠ N.mac (N.macKey k n) x

/-- **C204 fails for the answers of a wallet**: an answer as NIP-47 has it, with a `p` tag that names the client, reaches the client that asked
a relay for it, in exactly one callback, and its signature verifies; but `nostr_nip47_parse_response_event` takes the key of the tag, which is
the client's own, for the wallet's, and cannot read it. -/
theorem C204_wallet_answer_refuted {wallet relay client : Host} (hr : Renum relay.r) (hc : Renum client.r) {wsk wpk sk pk : Bytes}
    (S : Setting (env wallet nc B C) wsk wpk sk pk) (hw : Mail.Wider wallet.cfg client.cfg) (hcfg : Nip44.Spec.CfgOK client.cfg)
    (hsep : Separate nc sk pk wpk) (hpk : pk.length = 32)
    (hrelay : Reads relay) (hclient : Reads client) {now : Int} (ht : now.natAbs < 10 ^ 15) {nonce : Bytes} {aux : Option Bytes}
    (hn : nonce.length = 32) {text : Bytes} (h6 : text.length ≤ 45056) {e : Event}
    (hs : letter (env wallet nc B C) 23195 now (some nonce) aux wsk pk text [[c!"encryption", c!"nip44_v2"]] = .ok e)
    (open_ : List (Bytes × List Filter.Filter)) {id : Bytes} {fs : List Filter.Filter} (ho : (id, fs) ∈ open_) (hf : inbox 23195 pk ∈ fs)
    (hid : CStr id) (hl : id.length ≤ 64) (hasCb : Bool) (past : List Relay.Spec.Op) {cb : Nat}
    (hcb : (Relay.Spec.stack id past).head? = some (some cb)) :
    ∃ t n, Relay.sendEvent wallet.b e = .ok t ∧ ∀ k, n < k → ∃ m, (id, m) ∈ forward C relay k open_ t ∧
      ∀ cs chunk, cs.flatten = m → (∀ c ∈ cs, c.length ≤ chunk) → m.length + chunk + 1024 ≤ 10485760 →
        ∃ got, arrive client hasCb past cs = some [.event cb got] ∧ verify C client.b got = .ok () ∧
          Nip44.decrypt nc B client.cfg sk got.pubkey got.text = .ok text ∧
          Nip47.parseResponse (env client nc B C) client.r got sk = .err .invalidSignature := by
  obtain ⟨ct, x, e1, d, e2⟩ := letter_ok hs
  obtain ⟨l1, l2, -⟩ := encrypt_length S hn e1
  obtain ⟨w, w1, w2, w3, w4, w5⟩ := signed_shape S d (by decide) (by
    intro t ht
    rw [List.mem_singleton] at ht
    rw [ht]
    exact ⟨by simp, by decide⟩) ht l2 e2
  obtain ⟨t, n, a1, a2⟩ := reaches (author := wallet) hr hc S.crypto (by decide) ht (l1.1 h6) (by simp) hrelay hclient e2 ⟨w, w1, w2, w3, w4⟩ open_ ho hf
    hid hl hasCb past hcb
  have e1' : Nip44.encrypt nc B client.cfg (some nonce) wsk pk text = .ok ct := encrypt_wider hw e1
  have k2 := Nip44.Props.C15_roundtrip_partial S.keys S.base64.ok hcfg hn (by omega) e1'
  have hx : e.text = ct := by unfold Event.text; rw [w4]; rfl
  have hpeer : Nip47.peer e = pk := by
    unfold Nip47.peer
    rw [w3]
    have := (Nip47.Props.hexDecode_for (s := Hex.Spec.hexText pk) (bs := pk) (n := 32) (hexFor_self pk) hpk).1
    simp [this]
  have hno : Nip44.decrypt nc B client.cfg sk pk ct = .err .invalidSignature := by
    obtain ⟨ck, p, c1, -, -, c2, -, rfl⟩ := Nip44.Props.encrypt_payload S.keys hcfg hn e1'
    have g1 := (Nip44.paddedLen_limit (a := text.length) (by omega)).2 (by omega)
    have g2 := (Nip44.paddedLen_ge (len := text.length) (by omega)).2
    rw [Nip44.Props.paddedLen_eq (by omega)] at g1 g2
    have clen : (nc.crypt ck nonce p).length = 2 + Nip44.Spec.libPadded text.length := by
      rw [← c2]; exact S.keys.len _ _ _
    unfold Nip44.decrypt
    have hB : Nip44.Spec.B64OK B := S.base64.ok
    change (if (B.enc (2 :: (nonce ++ nc.crypt ck nonce p ++ nc.mac (nc.macKey ck nonce) (nonce ++ nc.crypt ck nonce p)))).head? = some 0x23 then _ else
      match B.dec (B.enc (2 :: (nonce ++ nc.crypt ck nonce p ++ nc.mac (nc.macKey ck nonce) (nonce ++ nc.crypt ck nonce p)))) with
      | none => _
      | some q => Nip44.decryptPayload nc client.cfg sk pk q) = _
    rw [if_neg (hB.plain _), hB.inv]
    simp only
    have mlen : (nc.mac (nc.macKey ck nonce) (nonce ++ nc.crypt ck nonce p)).length = 32 := S.keys.mac _ _
    cases hk : nc.conv sk pk with
    | none =>
      unfold Nip44.decryptPayload
      have hlen : (2 :: (nonce ++ nc.crypt ck nonce p ++ nc.mac (nc.macKey ck nonce) (nonce ++ nc.crypt ck nonce p)) : Bytes).length =
          65 + (nc.crypt ck nonce p).length := by
        simp only [List.length_cons, List.length_append, hn, mlen]; omega
      rw [hlen, if_neg (by omega), if_neg (by simp)]
      simp only [hk]
    | some ck' =>
      rw [Nip44.Props.decryptPayload_layout hk hn mlen (by omega) (by omega), if_pos (hsep _ _ hk c1 _ _)]
  refine ⟨t, n, a1, fun k hk => ?_⟩
  obtain ⟨m, b1, b2⟩ := a2 k hk
  refine ⟨m, b1, fun cs chunk c1 c2 c3 => ?_⟩
  obtain ⟨f1, f2⟩ := b2 cs chunk c1 c2 c3
  refine ⟨e, f1, f2, by rw [w5, hx]; exact k2, ?_⟩
  have hsays : Nip47.saysNip44 e.tags = true := by
    rw [w3]
    unfold Nip47.saysNip44
    rw [if_neg (by decide)]
    decide +kernel
  unfold Nip47.parseResponse Nip47.openResponse
  rw [if_neg (by rw [w2]; decide), if_pos hsays, w4]
  simp only [hpeer, env, hno, Res.bind_err]

/-! ## Examples -/

open Mail.Props (std)

/-- The secret key `x` in 32 bytes (in the toy cryptography it is the public key as well). -/
abbrev key (x : UInt8) : Bytes := List.replicate 32 x

abbrev toy : Nip47.Env := env std Nip47.Props.sumNc Base64.codec Gift.Props.sized

theorem std_setting (a b : UInt8) : Setting toy (key a) (key a) (key b) (key b) where
  crypto := Gift.Props.sized_ok
  sizes := Gift.Props.sized_sizes
  base64 := Gift.Props.codec_standard
  cfg := by intro c hc; cases hc; unfold Config.Spec.InRange; decide
  sender := rfl
  keys := Nip47.Props.sumNc_ok _ _

example : Mail.Wider std.cfg std.cfg := ⟨Nat.le_refl _, Nat.le_refl _, by intro c hc; cases hc; decide⟩
example : Reads std := by intro c hc; cases hc; decide
example : Mail.Limited std := ⟨_, rfl, by decide⟩
example : Renum std.r := Msg.Props.toy_renum
example : Separate Nip47.Props.sumNc (key 1) (key 1) (key 2) := by
  intro k k' h h' n x
  cases h
  cases h'
  simp only [Nip47.Props.sumNc]
  decide

/-- A request to a signer, its answer, a request to a wallet, a notification and an answer are made with the default limits. -/
example : (letter toy 24133 1700000000 (some (key 5)) (some (key 6)) (key 1) (key 2)
      (print false 0 (.obj [(c!"id", .str (c!"7")), (c!"method", .str (c!"ping")), (c!"params", .arr ([].map .str))])) []).isOk = true ∧
    (Nip46.createResponse toy std.r 1700000000 (some (key 5)) (some (key 6)) ⟨c!"7", some (c!"pong"), none⟩ (key 2) (key 1)).isOk = true ∧
    (Nip47.request toy 1700000000 (some (key 5)) (some (key 6)) (key 1) (key 2) (c!"get_info") (print false 0 (.obj []))).isOk = true ∧
    (letter toy 23197 1700000000 (some (key 5)) (some (key 6)) (key 2) (key 1)
      (print false 0 (.obj [(c!"notification_type", .str (c!"payment_sent")), (c!"notification", .obj [])])) []).isOk = true ∧
    (letter toy 23195 1700000000 (some (key 5)) (some (key 6)) (key 2) (key 1) (c!"{}") [[c!"encryption", c!"nip44_v2"]]).isOk = true := by
  decide +kernel

/-- A long answer is made: a result of 46000 bytes. -/
example : (Nip46.createResponse toy std.r 1700000000 (some (key 5)) (some (key 6)) ⟨c!"7", some (List.replicate 46000 97), none⟩ (key 2) (key 1)).isOk = true ∧
    45056 < (Nip46.responseText std.r ⟨c!"7", some (List.replicate 46000 97), none⟩).length := by
  decide +kernel

end Nostr.Journey.Talk.Props
