import Verif.Json.Says
import Verif.Nip46.Model
import Verif.Nip47.Props
import Verif.Gift.Lemmas
import Verif.Json.NoNul

/-! # Property theorems: C71 -/

namespace Nostr.Nip46.Props
open Nostr Nostr.Event Nostr.Json Nostr.Nip46

theorem cstr_id {s : Bytes} (h : CStr s) : cstr s = s := by
  unfold cstr
  have := (Num.takeWhile_append_stop (p := fun c => c != 0) (a := s) (rest := []) (by
    intro a ha; simp only [bne_iff_ne, ne_eq]; rintro rfl; exact h ha) (by simp)).1
  rwa [List.append_nil] at this

theorem read_request {r : Bytes → Json} {m : List (Bytes × Json)} {sender id method : Bytes} {ps : Json}
    (fmt : Bool) (hg : Good (.obj m)) (hh : height (.obj m) ≤ nestingLimit)
    (hid : Says m (c!"id") (.str id)) (hmeth : Says m (c!"method") (.str method)) (hps : Says m (c!"params") ps) :
    requestOf r sender (cstr (print fmt 0 (.obj m))) = .ok ⟨id.take 64, method.take 31, some (reprint r ps), sender⟩ := by
  rw [cstr_id (print_cstr fmt 0 _ hg)]
  have := parse_print fmt 0 (.obj m) hg hh [] (by intro c hc; simp at hc)
  rw [List.append_nil] at this
  unfold requestOf field
  rw [this]
  simp only [get_says hid, get_says hmeth, get_says hps]
  rfl

/-- C71: a request that anyone encrypts to the signer is read with the id, the method and the sender it has, if the
id has at most 64 bytes and the method at most 31; members may stand in any order among others. The parameters are
the given JSON value again, up to numbers being rewritten. Missing: longer ids and methods
(`C71_long_refuted`). -/
theorem C71_request_partial {E : Nip47.Env} {r : Bytes → Json} (hr : Renum r)
    {csk client sk pk : Bytes} (hN : Nip44.Spec.NcOK E.nc csk client sk pk)
    (hB : Nip44.Spec.B64OK E.b64) (hcfg : Nip44.Spec.CfgOK E.cfg) {nonce ct : Bytes} (hn : nonce.length = 32)
    {m : List (Bytes × Json)} {id method : Bytes} {ps : Json} (fmt : Bool)
    (hg : Good (.obj m)) (hh : height (.obj m) ≤ nestingLimit) (hl : (print fmt 0 (.obj m)).length ≤ 61440)
    (hid : Says m (c!"id") (.str id)) (hmeth : Says m (c!"method") (.str method)) (hps : Says m (c!"params") ps)
    (hcs : CStrs ps) (hph : height ps ≤ nestingLimit)
    (hidl : id.length ≤ 64) (hml : method.length ≤ 31)
    (henc : Nip44.encrypt E.nc E.b64 E.cfg (some nonce) csk pk (print fmt 0 (.obj m)) = .ok ct)
    {e : Event} (hk : e.kind = 24133) (hc : e.content = some ct) (hp : e.pubkey = client) :
    ∃ t, parseRequest E r e sk = .ok ⟨id, method, some t, client⟩ ∧ parse t = some (mapNum r ps) := by
  refine ⟨reprint r ps, ?_, parse_reprint hr hcs hph⟩
  unfold parseRequest
  rw [if_neg (by rw [hk]; decide), hc]
  simp only
  rw [hp, Nip44.Props.C15_roundtrip_partial hN hB hcfg hn hl henc, Res.bind_ok,
    read_request fmt hg hh hid hmeth hps, List.take_of_length_le hidl, List.take_of_length_le hml]

/-- C71: only events of kind 24133 are read as requests, and the client reported is the author of the event. -/
theorem C71_only_requests {E : Nip47.Env} {r : Bytes → Json} {e : Event} {sk : Bytes} {q : Request}
    (h : parseRequest E r e sk = .ok q) : e.kind = 24133 ∧ q.sender = e.pubkey := by
  unfold parseRequest at h
  split at h
  · cases h
  · rename_i hk
    refine ⟨Decidable.not_not.1 hk, ?_⟩
    cases hc : e.content with
    | none => rw [hc] at h; cases h
    | some t =>
      rw [hc] at h
      obtain ⟨d, -, h2⟩ := Res.bind_eq_ok.1 h
      unfold requestOf at h2
      split at h2
      · cases h2
      · cases h2; rfl

theorem strs_same (r : Bytes → Json) (ps : List Bytes) : mapNum r (.arr (ps.map .str)) = .arr (ps.map .str) := by
  simp only [mapNum, mapNumL_map, List.map_map]
  congr 1

theorem strs_cstrs {ps : List Bytes} (h : ∀ s ∈ ps, CStr s) : CStrs (.arr (ps.map .str)) := by
  simp only [CStrs]
  induction ps with
  | nil => simp [CStrsL]
  | cons a l ih =>
    simp only [List.map_cons, CStrsL, CStrs]
    exact ⟨h a (by simp), ih fun s hs => h s (by simp [hs])⟩

theorem strs_goodL {ps : List Bytes} (h : ∀ s ∈ ps, CStr s) : GoodL (ps.map .str) := by
  induction ps with
  | nil => simp [GoodL]
  | cons a l ih =>
    simp only [List.map_cons, GoodL, Good]
    exact ⟨h a (by simp), ih fun s hs => h s (by simp [hs])⟩

theorem strs_height (ps : List Bytes) : heightL (ps.map .str) = 0 := by
  induction ps with
  | nil => rfl
  | cons a l ih => simp [heightL, height, ih]

/-- C71: a request as NIP-46 defines it, with a list of strings as parameters, is read exactly. -/
theorem C71_standard_request {E : Nip47.Env} {r : Bytes → Json} (hr : Renum r)
    {csk client sk pk : Bytes} (hN : Nip44.Spec.NcOK E.nc csk client sk pk)
    (hB : Nip44.Spec.B64OK E.b64) (hcfg : Nip44.Spec.CfgOK E.cfg) {nonce ct : Bytes} (hn : nonce.length = 32)
    {id method : Bytes} {ps : List Bytes} (hid : CStr id) (hmeth : CStr method) (hps : ∀ s ∈ ps, CStr s)
    (hidl : id.length ≤ 64) (hml : method.length ≤ 31)
    (hl : (print false 0 (.obj [(c!"id", .str id), (c!"method", .str method), (c!"params", .arr (ps.map .str))])).length ≤ 61440)
    (henc : Nip44.encrypt E.nc E.b64 E.cfg (some nonce) csk pk
      (print false 0 (.obj [(c!"id", .str id), (c!"method", .str method), (c!"params", .arr (ps.map .str))])) = .ok ct)
    {e : Event} (hk : e.kind = 24133) (hc : e.content = some ct) (hp : e.pubkey = client) :
    ∃ t, parseRequest E r e sk = .ok ⟨id, method, some t, client⟩ ∧ parse t = some (.arr (ps.map .str)) := by
  rw [← strs_same r ps]
  refine C71_request_partial hr hN hB hcfg hn false ?_ ?_ hl ?_ ?_ ?_ (strs_cstrs hps) ?_ hidl hml henc hk hc hp
  · simp only [Good, GoodM]
    exact ⟨by decide, hid, by decide, hmeth, by decide, strs_goodL hps, trivial⟩
  · simp [height, heightM, strs_height, nestingLimit]
  · exact ⟨by simp, by intro q hq h; simp only [List.mem_cons, List.not_mem_nil, or_false] at hq
                       rcases hq with rfl | rfl | rfl
                       · rfl
                       · revert h; simp only; intro h; exact absurd h (by decide)
                       · revert h; simp only; intro h; exact absurd h (by decide)⟩
  · exact ⟨by simp, by intro q hq h; simp only [List.mem_cons, List.not_mem_nil, or_false] at hq
                       rcases hq with rfl | rfl | rfl
                       · revert h; simp only; intro h; exact absurd h (by decide)
                       · rfl
                       · revert h; simp only; intro h; exact absurd h (by decide)⟩
  · exact ⟨by simp, by intro q hq h; simp only [List.mem_cons, List.not_mem_nil, or_false] at hq
                       rcases hq with rfl | rfl | rfl
                       · revert h; simp only; intro h; exact absurd h (by decide)
                       · revert h; simp only; intro h; exact absurd h (by decide)
                       · rfl⟩
  · simp [height, strs_height, nestingLimit]

/-- The request of the examples: `connect` from key 7 to the signer with key 5. -/
def sample : Res Bytes := Nip44.encrypt Nip47.Props.sumNc Nip44.Props.toyB64 none (some (List.replicate 32 1))
  (List.replicate 32 7) (List.replicate 32 5)
  (print false 0 (.obj [(c!"id", .str (c!"a1")), (c!"method", .str (c!"connect")), (c!"params", .arr ([c!"k", c!"s"].map .str))]))

/-- The hypotheses are met: the request can be encrypted, and it is read. -/
example : (sample >>= fun ct => parseRequest Nip47.Props.sumEnv (fun t => .num t)
    { zero with kind := 24133, pubkey := List.replicate 32 7, content := some ct } (List.replicate 32 5)) =
    .ok ⟨c!"a1", c!"connect", some (c!"[\"k\",\"s\"]"), List.replicate 32 7⟩ := by
  decide +kernel

/-- C71 fails for ids of more than 64 bytes and for methods of more than 31: the request is accepted with a cut
id or method. -/
theorem C71_long_refuted (r : Bytes → Json) (sender : Bytes) {id method : Bytes} (hid : CStr id) (hmeth : CStr method)
    (hl : 64 < id.length ∨ 31 < method.length) :
    ∃ q, requestOf r sender (print false 0 (.obj [(c!"id", .str id), (c!"method", .str method), (c!"params", .arr [])])) = .ok q ∧
      (q.id ≠ id ∨ q.method ≠ method) := by
  have hg : Good (.obj [(c!"id", .str id), (c!"method", .str method), (c!"params", .arr [])]) := by
    simp only [Good, GoodM]
    exact ⟨by decide, hid, by decide, hmeth, by decide, trivial, trivial⟩
  have := parse_print false 0 _ hg (by simp [height, heightM, heightL, nestingLimit]) [] (by intro c hc; simp at hc)
  rw [List.append_nil] at this
  unfold requestOf
  rw [this]
  refine ⟨_, rfl, ?_⟩
  rcases hl with hl | hl
  · left
    intro h
    have h1 : (id.take 64) = id := h
    have := congrArg List.length h1
    rw [List.length_take] at this; omega
  · right
    intro h
    have h1 : (method.take 31) = method := h
    have := congrArg List.length h1
    rw [List.length_take] at this; omega

/-- The hypotheses are met. -/
example : CStr (List.replicate 65 (0x61 : UInt8)) ∧ 64 < (List.replicate 65 (0x61 : UInt8)).length := by decide

/-! ## Responses -/

/-- What every created response has: kind, signer, time, tag, valid signature, and a content that decrypts to the
response text. -/
theorem created {E : Nip47.Env} (hC : Nostr.Event.Props.CryptoOK E.crypto) {sk pk csk client : Bytes}
    (hN : Nip44.Spec.NcOK E.nc sk pk csk client) (hB : Nip44.Spec.B64OK E.b64) (hcfg : Nip44.Spec.CfgOK E.cfg)
    (htags : ∀ c ∈ E.cfg, 0 < c.maxTags) (hpk : E.crypto.pubOf sk = some pk) {r : Bytes → Json} {now : Int} {nonce : Bytes} {aux : Option Bytes}
    {p : Response} {e : Event} (hn : nonce.length = 32) (hl : (responseText r p).length ≤ 61440)
    (h : createResponse E r now (some nonce) aux p sk client = .ok e) :
    e.kind = 24133 ∧ e.pubkey = pk ∧ e.createdAt = now ∧ verify E.crypto E.build e = .ok () ∧
      e.tags = [[c!"p", Hex.Spec.hexText client]] ∧
      Nip44.decrypt E.nc E.b64 E.cfg csk pk e.text = .ok (responseText r p) := by
  unfold createResponse at h
  obtain ⟨ct, h1, k1⟩ := Res.bind_eq_ok.1 h
  obtain ⟨e1, h2, k2⟩ := Res.bind_eq_ok.1 k1
  have hdec := Nip44.Props.C15_roundtrip_partial hN hB hcfg hn hl h1
  obtain ⟨v1, v2, v3⟩ := Event.Props.C19_signed_verifies hC k2
  obtain ⟨t, -, q⟩ := Gift.computeId_ok h2
  rw [hpk, Option.some.injEq] at v2
  obtain ⟨s1, s2, s3, s4, s5⟩ := v3
  have ha : addP E.cfg { zero with kind := kind46, createdAt := now, content := some ct } client =
      { zero with kind := kind46, createdAt := now, content := some ct, tags := [[c!"p", Hex.hexEncode client]] } := by
    unfold addP addTag
    rw [if_neg (by simp)]
    cases hc : E.cfg with
    | none => simp [zero]
    | some c =>
      have := htags c (by simp [hc])
      have h0 : c.maxTags ≠ 0 := by omega
      simp [zero, h0]
  rw [ha] at q
  rw [q] at s2 s3 s4 s5
  refine ⟨s3, v2.symm, s2, v1, ?_, ?_⟩
  · rw [s4, Hex.hexEncode_eq]
  · have : e.text = ct := s5
    rw [this]; exact hdec

theorem text_back {r : Bytes → Json} {p : Response} (hid : CStr p.id) (hg : GoodM (outcome r p))
    (hh : heightM (outcome r p) < nestingLimit) :
    parse (responseText r p) = some (.obj ((c!"id", .str p.id) :: outcome r p)) := by
  have := parse_print false 0 (.obj ((c!"id", .str p.id) :: outcome r p)) (by
    simp only [Good, GoodM]; exact ⟨by decide, hid, hg⟩) (by simp only [height, heightM]; omega) [] (by intro c hc; simp at hc)
  rw [List.append_nil] at this
  exact this

/-- C71: a response that is created verifies, names its receiver, and the receiver decrypts it to an object with
the id and the error (if there is one), else with the result: the JSON value when the result is printed JSON, the
string when it does not begin with JSON text. Missing: other result texts (`C71_digit_refuted`), and a result
beside an error (`C71_both_refuted`). -/
theorem C71_response_partial {E : Nip47.Env} (hC : Nostr.Event.Props.CryptoOK E.crypto) {sk pk csk client : Bytes}
    (hN : Nip44.Spec.NcOK E.nc sk pk csk client) (hB : Nip44.Spec.B64OK E.b64) (hcfg : Nip44.Spec.CfgOK E.cfg)
    (htags : ∀ c ∈ E.cfg, 0 < c.maxTags) (hpk : E.crypto.pubOf sk = some pk)
    {r : Bytes → Json} (hr : Renum r) {now : Int} {nonce : Bytes} {aux : Option Bytes}
    {p : Response} {e : Event} (hn : nonce.length = 32) (hl : (responseText r p).length ≤ 61440) (hid : CStr p.id)
    (h : createResponse E r now (some nonce) aux p sk client = .ok e) :
    e.kind = 24133 ∧ e.pubkey = pk ∧ e.createdAt = now ∧ verify E.crypto E.build e = .ok () ∧
      e.tags = [[c!"p", Hex.Spec.hexText client]] ∧
      ∃ t, Nip44.decrypt E.nc E.b64 E.cfg csk pk e.text = .ok t ∧
        (∀ s, p.error = some s → CStr s → parse t = some (.obj [(c!"id", .str p.id), (c!"error", .str s)])) ∧
        (p.error = none → p.result = none → parse t = some (.obj [(c!"id", .str p.id)])) ∧
        (∀ s, p.error = none → p.result = some s → CStr s → parse s = none →
          parse t = some (.obj [(c!"id", .str p.id), (c!"result", .str s)])) ∧
        (∀ fmt j, p.error = none → p.result = some (print fmt 0 j) → Good j → height j < nestingLimit →
          parse t = some (.obj [(c!"id", .str p.id), (c!"result", mapNum r j)])) := by
  obtain ⟨g1, g2, g3, g4, g5, g6⟩ := created hC hN hB hcfg htags hpk hn hl h
  refine ⟨g1, g2, g3, g4, g5, _, g6, ?_, ?_, ?_, ?_⟩
  · intro s he hs
    have ho : outcome r p = [(c!"error", .str s)] := by unfold outcome; rw [he]
    have := text_back (r := r) hid (by rw [ho]; simp only [GoodM, Good]; exact ⟨by decide, hs, trivial⟩)
      (by rw [ho]; simp [heightM, height, nestingLimit])
    rw [this, ho]
  · intro he hr'
    have ho : outcome r p = [] := by unfold outcome; rw [he, hr']
    have := text_back (r := r) hid (by rw [ho]; simp [GoodM]) (by rw [ho]; simp [heightM, nestingLimit])
    rw [this, ho]
  · intro s he hres hs hnone
    have ho : outcome r p = [(c!"result", .str s)] := by unfold outcome; rw [he, hres]; simp only; rw [hnone]
    have := text_back (r := r) hid (by rw [ho]; simp only [GoodM, Good]; exact ⟨by decide, hs, trivial⟩)
      (by rw [ho]; simp [heightM, height, nestingLimit])
    rw [this, ho]
  · intro fmt j he hres hg hh
    have hp := parse_print fmt 0 j hg (by omega) [] (by intro c hc; simp at hc)
    rw [List.append_nil] at hp
    have ho : outcome r p = [(c!"result", mapNum r j)] := by unfold outcome; rw [he, hres]; simp only; rw [hp]
    have := text_back (r := r) hid (by
        rw [ho]; simp only [GoodM]
        exact ⟨by decide, good_mapNum hr j (parse_cstrs hp).1, trivial⟩)
      (by rw [ho]; simp only [heightM]; rw [height_mapNum hr]; omega)
    rw [this, ho]

/-- The hypotheses are met: an acknowledgement from the signer with key 5 to the client with key 7. -/
example : (createResponse Nip47.Props.toyEnv (fun t => .num t) 9 (some (List.replicate 32 1)) (some [])
    ⟨c!"a1", some (c!"ack"), none⟩ (List.replicate 32 1) (List.replicate 32 4)).isOk = true := by
  decide +kernel

/-- The string result of the example is of the first kind, the pong of NIP-46 too. -/
example : parse (c!"ack") = none ∧ parse (c!"pong") = none := by decide +kernel

theorem digit_table : ∀ n < 256, Num.isDigit (UInt8.ofNat n) = true →
    ¬ UInt8.ofNat n ≤ 0x20 ∧ UInt8.ofNat n ≠ 0x6e ∧ UInt8.ofNat n ≠ 0x66 ∧ UInt8.ofNat n ≠ 0x74 ∧ UInt8.ofNat n ≠ 0x22 ∧
      UInt8.ofNat n ≠ 0x2d ∧ UInt8.ofNat n ≠ 0x2b := by decide +kernel

theorem digit_facts {c : UInt8} (h : Num.isDigit c = true) :
    ¬ c ≤ 0x20 ∧ c ≠ 0x6e ∧ c ≠ 0x66 ∧ c ≠ 0x74 ∧ c ≠ 0x22 ∧ c ≠ 0x2d ∧ c ≠ 0x2b := by
  have := digit_table c.toNat c.toNat_lt
  rw [UInt8.ofNat_toNat] at this
  exact this h

/-- A text that begins with a digit is read as a number. -/
theorem number_first (s : Bytes) {c : UInt8} (hc : Num.isDigit c = true) : ∃ t, parse (c :: s) = some (.num t) := by
  obtain ⟨h1, h2, h3, h4, h5, h6, h7⟩ := digit_facts hc
  have hw : skipWs (c :: s) = c :: s := by
    unfold skipWs
    rw [List.dropWhile_cons, if_neg (by simpa using h1)]
  have htok : strtodPrefix (((c :: s).take 63).takeWhile isNumChar) ≠ [] := by
    have : ∃ u, ((c :: s).take 63).takeWhile isNumChar = c :: u := by
      refine ⟨(s.take 62).takeWhile isNumChar, ?_⟩
      rw [List.take_succ_cons, List.takeWhile_cons, if_pos (by simp [isNumChar, hc])]
    obtain ⟨u, hu⟩ := this
    rw [hu]
    unfold strtodPrefix
    simp [h6, h7, digits, hc]
  unfold parse
  rw [hw]
  unfold parseValue
  simp only [List.isPrefixOf_cons₂, List.isPrefixOf]
  simp only [beq_iff_eq, Bool.and_eq_true, Ne.symm h2, Ne.symm h3, Ne.symm h4, false_and, if_false]
  rw [if_neg h5, if_pos (Or.inr hc), if_neg htok]
  exact ⟨_, rfl⟩

/-- C71 fails for results that begin with a decimal digit, such as ten of sixteen public keys in hexadecimal: the
receiver finds no string, but a number (or `null`). -/
theorem C71_digit_refuted {r : Bytes → Json} (hr : Renum r) {id s : Bytes} {c : UInt8}
    (hid : CStr id) (hc : Num.isDigit c = true) :
    ∃ v, parse (responseText r ⟨id, some (c :: s), none⟩) = some (.obj [(c!"id", .str id), (c!"result", v)]) ∧
      asStr v = none := by
  obtain ⟨t, ht⟩ := number_first s hc
  have ho : outcome r ⟨id, some (c :: s), none⟩ = [(c!"result", r t)] := by
    unfold outcome; simp only; rw [ht]; rfl
  have hgood : Good (r t) ∧ height (r t) = 0 ∧ asStr (r t) = none := by
    rcases hr.shape t with h | ⟨t', h, hg⟩
    · rw [h]; exact ⟨trivial, rfl, rfl⟩
    · rw [h]; exact ⟨hg, rfl, rfl⟩
  refine ⟨r t, ?_, hgood.2.2⟩
  have := text_back (r := r) (p := ⟨id, some (c :: s), none⟩) hid
    (by rw [ho]; simp only [GoodM]; exact ⟨by decide, hgood.1, trivial⟩)
    (by rw [ho]; simp [heightM, hgood.2.1, nestingLimit])
  rw [this, ho]

/-- The generator's public key is sent as the number 79. -/
example : responseText (fun t => .num t) ⟨c!"a1", some (c!"79be667ef9dcbbac55a06295ce870b07"), none⟩ =
    c!"{\"id\":\"a1\",\"result\":79}" := by decide +kernel

/-- C71 fails for responses with both a result and an error, which NIP-46 uses for authentication challenges
(`auth_url` with the address in `error`): the result is dropped. -/
theorem C71_both_refuted {r : Bytes → Json} {id x s : Bytes} (hid : CStr id) (hs : CStr s) :
    parse (responseText r ⟨id, some x, some s⟩) = some (.obj [(c!"id", .str id), (c!"error", .str s)]) := by
  have ho : outcome r ⟨id, some x, some s⟩ = [(c!"error", .str s)] := rfl
  have := text_back (r := r) (p := ⟨id, some x, some s⟩) hid
    (by rw [ho]; simp only [GoodM, Good]; exact ⟨by decide, hs, trivial⟩) (by rw [ho]; simp [heightM, height, nestingLimit])
  rw [this, ho]

end Nostr.Nip46.Props
