import Verif.Json.NoNul
import Verif.Nip47.Spec
import Verif.Json.Body
import Verif.Event.Props
import Verif.Nip44.Props
import Verif.RelayProto.Lemmas

/-! # Property theorems: C42, C43, C98, C101, C102, C103 -/

namespace Nostr.Nip47.Props
open Nostr Nostr.Nip47 Nostr.Json Nostr.Event Nostr.RelayProto Spec

/-! ## C43 -/

/-- The escaped text without limit. -/
def esc47 (s : Bytes) : Bytes := s.flatMap escChar47

theorem esc47_table : ∀ n < 256, n ≠ 0 →
    (escChar47 (UInt8.ofNat n) = [UInt8.ofNat n] ∧ UInt8.ofNat n ≠ 0x22 ∧ UInt8.ofNat n ≠ 0x5c ∧ 0x20 ≤ n) ∨
    (shortEsc.any (fun p => escChar47 (UInt8.ofNat n) = [0x5c, p.2] ∧ p.1 = UInt8.ofNat n)) ∨
    (escChar47 (UInt8.ofNat n) = [0x5c, 0x75, 0x30, 0x30, Hex.digit (n / 16), Hex.digit (n % 16)] ∧ n < 0x20) := by
  decide +kernel

theorem esc47_cases {c : UInt8} (h0 : c ≠ 0) :
    (escChar47 c = [c] ∧ c ≠ 0x22 ∧ c ≠ 0x5c ∧ 0x20 ≤ c.toNat) ∨
    (∃ p ∈ shortEsc, escChar47 c = [0x5c, p.2] ∧ p.1 = c) ∨
    (escChar47 c = [0x5c, 0x75, 0x30, 0x30, Hex.digit (c.toNat / 16), Hex.digit (c.toNat % 16)] ∧ c.toNat < 0x20) := by
  have hn : c.toNat ≠ 0 := fun h => h0 (UInt8.toNat_inj.1 h)
  have ht := esc47_table c.toNat c.toNat_lt hn
  rw [UInt8.ofNat_toNat] at ht
  simpa only [List.any_eq_true, decide_eq_true_eq] using ht

theorem esc47_char {c : UInt8} (h0 : c ≠ 0) : Escaped (escChar47 c) [c] ∧ (escChar47 c).length ≤ 6 ∧
    ∀ s, Body s → Body (escChar47 c ++ s) := by
  rcases esc47_cases h0 with ⟨h1, h2, h3, h4⟩ | ⟨p, hp, h1, h2⟩ | ⟨h1, h2⟩
  · rw [h1]; exact ⟨.plain h2 h3 .nil, by simp, fun s hs => .plain h2 h3 h4 hs⟩
  · rw [h1, ← h2]
    refine ⟨.short hp .nil, by simp, fun s hs => .two ?_ hs⟩
    simp only [shortEsc, List.mem_cons, List.not_mem_nil, or_false] at hp
    rcases hp with rfl | rfl | rfl | rfl | rfl | rfl | rfl <;> decide
  · rw [h1]
    refine ⟨.code h2 .nil, by simp, fun s hs => .four ?_ hs⟩
    have hd : ∀ n < 16, Hex.Spec.IsHexDigit (Hex.digit n) := by unfold Hex.Spec.IsHexDigit; decide +kernel
    intro x hx
    simp only [List.mem_cons, List.not_mem_nil, or_false] at hx
    rcases hx with rfl | rfl | rfl | rfl
    · unfold Hex.Spec.IsHexDigit; decide
    · unfold Hex.Spec.IsHexDigit; decide
    · exact hd _ (by omega)
    · exact hd _ (by omega)

theorem escLoop_eq (room : Nat) : ∀ (s : Bytes) (pos : Nat), CStr s → pos ≤ room →
    ∃ p q, s = p ++ q ∧ escLoop room pos s = esc47 p ∧ pos + (esc47 p).length ≤ room ∧ Escaped (esc47 p) p ∧ Body (esc47 p) ∧
      (pos + 6 * s.length ≤ room → q = []) ∧ (∀ c q', q = c :: q' → room < pos + (esc47 p).length + (escChar47 c).length) := by
  intro s
  induction s with
  | nil => intro pos _ h; exact ⟨[], [], rfl, rfl, by simpa [esc47] using h, .nil, .nil, fun _ => rfl, by simp⟩
  | cons c s ih =>
    intro pos hs h
    have hc : c ≠ 0 := fun h0 => hs (by simp [h0])
    obtain ⟨e1, e2, e3⟩ := esc47_char hc
    unfold escLoop
    split
    · rename_i hg
      refine ⟨[], c :: s, rfl, rfl, by simpa [esc47] using h, .nil, .nil, ?_, ?_⟩
      · intro hr; simp only [List.length_cons] at hr; omega
      · intro d q' hq
        simp only [List.cons.injEq] at hq
        rw [← hq.1]
        simp only [esc47, List.flatMap_nil, List.length_nil]
        omega
    · rename_i hg
      obtain ⟨p, q, h1, h2, h3, h4, h5, h6, h7⟩ := ih (pos + (escChar47 c).length) (fun h0 => hs (by simp [h0])) (by omega)
      have hp : esc47 (c :: p) = escChar47 c ++ esc47 p := rfl
      refine ⟨c :: p, q, by rw [h1]; rfl, by rw [h2, hp], ?_, ?_, ?_, ?_, ?_⟩
      · rw [hp, List.length_append]; omega
      · rw [hp]; exact e1.append h4
      · rw [hp]; exact e3 _ h5
      · intro hr; apply h6; simp only [List.length_cons] at hr; omega
      · intro d q' hq
        have := h7 d q' hq
        rw [hp, List.length_append]; omega

/-- C43: escaping into a buffer of `size` bytes leaves a terminated text in it that is the body of a JSON string and
reads back as a beginning of the given text, cut only where the next character does not fit; a text of `n` bytes is
never cut if `6 n < size`. -/
theorem C43_escape {s out : Bytes} {size : Nat} (hs : CStr s) (h : jsonEscape size s = some out) :
    out.length < size ∧ Body out ∧ ∃ p q, s = p ++ q ∧ (∀ rest, parseStr (out ++ 0x22 :: rest) = some (p, rest)) ∧
      (6 * s.length < size → q = []) ∧ (q ≠ [] → size ≤ out.length + 6) := by
  unfold jsonEscape at h
  split at h
  · simp at h
  rename_i h0
  simp only [Option.some.injEq] at h
  obtain ⟨p, q, h1, h2, h3, h4, h5, h6, h7⟩ := escLoop_eq (size - 1) s 0 hs (by omega)
  rw [← h, h2]
  have hp : CStr p := fun h0 => hs (by rw [h1]; simp [h0])
  refine ⟨by omega, h5, p, q, h1, fun rest => h4.parseStr hp rest, fun hr => h6 (by omega), ?_⟩
  intro hq
  cases q with
  | nil => exact absurd rfl hq
  | cons c q' =>
    have := h7 c q' rfl
    have hc : c ≠ 0 := fun h0 => hs (by rw [h1, h0]; simp)
    have := (esc47_char hc).2.1
    omega

/-- C43 for the escaping used in event texts and by cJSON: it reads back exactly, for every text. -/
theorem C43_event {s : Bytes} (hs : CStr s) (rest : Bytes) : parseStr (escape s ++ 0x22 :: rest) = some (s, rest) :=
  parseStr_quoted hs rest

/-- C43: different texts have different escaped forms. -/
theorem C43_injective {s t : Bytes} (hs : CStr s) (ht : CStr t) {n : Nat} (h1 : 6 * s.length < n) (h2 : 6 * t.length < n)
    (h : jsonEscape n s = jsonEscape n t) : s = t := by
  obtain ⟨o, ho⟩ : ∃ o, jsonEscape n s = some o := by unfold jsonEscape; rw [if_neg (by omega)]; exact ⟨_, rfl⟩
  obtain ⟨-, -, p, q, e1, e2, e3, -⟩ := C43_escape hs ho
  obtain ⟨-, -, p', q', f1, f2, f3, -⟩ := C43_escape ht (h ▸ ho)
  rw [e3 h1, List.append_nil] at e1
  rw [f3 h2, List.append_nil] at f1
  have := e2 []
  rw [f2 []] at this
  simp only [Option.some.injEq, Prod.mk.injEq, and_true] at this
  rw [e1, f1, this]

example : jsonEscape 10 (c!"a\"b\nc\u0001") = some (c!"a\\\"b\\nc") := by decide +kernel
example : jsonEscape 7 (c!"a\"b\nc") = some (c!"a\\\"b\\n") := by decide +kernel

/-! ## C98 -/

theorem escaped_plain {s : Bytes} (h : Plain s) : Escaped s s := by
  induction s with
  | nil => exact .nil
  | cons c s ih =>
    have := h c (by simp)
    exact .plain this.1 this.2.1 (ih fun d hd => h d (by simp [hd]))

/-- Reading `{"method":"…","params":…}`. -/
theorem request_parse {raw m : Bytes} {j : Json} (hr : Escaped raw m) (hm : CStr m) (hg : Good j) (hh : height j < nestingLimit) :
    parse (c!"{\"method\":\"" ++ raw ++ c!"\",\"params\":" ++ print false 0 j ++ c!"}") =
      some (.obj [(c!"method", .str m), (c!"params", j)]) := by
  have hn := need_le false j 0 hg
  obtain ⟨f, hf, hl⟩ : ∃ f, need j ≤ f ∧
      2 * ((c!"{\"method\":\"") ++ raw ++ c!"\",\"params\":" ++ print false 0 j ++ c!"}" : Bytes).length + 2 = f + 4 := by
    refine ⟨2 * ((c!"{\"method\":\"") ++ raw ++ c!"\",\"params\":" ++ print false 0 j ++ c!"}" : Bytes).length - 2, ?_, ?_⟩
    · simp only [List.length_append, List.length_cons, List.length_nil]; omega
    · simp only [List.length_append, List.length_cons, List.length_nil]; omega
  unfold parse
  rw [hl]
  have e : ((c!"{\"method\":\"") ++ raw ++ c!"\",\"params\":" ++ print false 0 j ++ c!"}" : Bytes) =
      0x7b :: 0x22 :: ((c!"method") ++ 0x22 :: 0x3a :: (0x22 :: (raw ++ 0x22 :: (0x2c :: (0x22 :: ((c!"params") ++ 0x22 :: 0x3a ::
        (print false 0 j ++ [0x7d]))))))) := by simp
  rw [e, skipWs_cons (by decide), value_obj _ _ (by decide) (by decide) (by decide),
    members_step (escaped_plain (by unfold Plain; decide)) (by decide), skipWs_cons (by decide), value_str hr hm]
  simp only [skipWs_cons (show ¬ (0x2c : UInt8) ≤ 0x20 by decide), if_true, skipWs_cons (show ¬ (0x22 : UInt8) ≤ 0x20 by decide)]
  rw [members_step (escaped_plain (by unfold Plain; decide)) (by decide), skipWs_print false 0 j hg,
    value_back false j (f + 1) (0 + 1) 0 [0x7d] (by omega) hg (by omega) (by intro x hx; simp at hx; rw [← hx]; decide)]
  simp only [skipWs_cons (show ¬ (0x7d : UInt8) ≤ 0x20 by decide)]
  simp

/-- The text that is encrypted parses to an object with exactly the method and the parameters. -/
theorem payload_parse {method : Bytes} {j : Json} (hm : CStr method) (hl : 6 * method.length ≤ 255) (hg : Good j)
    (hh : height j < nestingLimit) (hlen : 6 * method.length + (print false 0 j).length ≤ 8168) :
    ∃ t, payload method (print false 0 j) = .ok t ∧ parse t = some (.obj [(c!"method", .str method), (c!"params", j)]) ∧
      t.length ≤ 8191 := by
  obtain ⟨p, q, e1, e2, e3, e4, -, e6, -⟩ := escLoop_eq 255 method 0 hm (by omega)
  have hq := e6 (by omega)
  subst hq
  rw [List.append_nil] at e1
  subst e1
  have hp : parse (print false 0 j) = some j := by
    have := parse_print false 0 j hg (by omega) [] (by intro c hc; simp at hc)
    rwa [List.append_nil] at this
  have hlen6 : (esc47 method).length ≤ 6 * method.length := by
    clear e2 e3 e4 e6 hlen hl
    induction method with
    | nil => simp [esc47]
    | cons c s ih =>
      have h1 := (esc47_char (c := c) (fun h0 => hm (by simp [h0]))).2.1
      have h2 := ih (fun h0 => hm (by simp [h0]))
      simp only [esc47, List.flatMap_cons, List.length_append, List.length_cons] at h2 ⊢
      omega
  unfold payload
  rw [hp]
  have hj : jsonEscape 256 method = some (esc47 method) := by
    unfold jsonEscape; rw [if_neg (by omega)]; rw [e2]
  simp only [hj, Option.getD_some]
  rw [List.take_of_length_le (by simp only [List.length_append, List.length_cons, List.length_nil]; omega)]
  refine ⟨_, rfl, request_parse e4 hm hg hh, ?_⟩
  simp only [List.length_append, List.length_cons, List.length_nil]; omega

/-- C98: a request that is created is signed by the client, names the wallet and the encryption, and the wallet
decrypts it to a JSON object with exactly the given method and parameters. Missing: requests longer than 8191
bytes (`C98_long_refuted`) and parameters that are not printed by cJSON (`C98_inject_refuted`). -/
theorem C98_request_partial {E : Env} (hC : Nostr.Event.Props.CryptoOK E.crypto) {sk pk wsk wallet : Bytes}
    (hN : Nip44.Spec.NcOK E.nc sk pk wsk wallet) (hB : Nip44.Spec.B64OK E.b64) (hcfg : Nip44.Spec.CfgOK E.cfg)
    (hpk : E.crypto.pubOf sk = some pk)
    {now : Int} {nonce : Bytes} {aux : Option Bytes} {method : Bytes} {j : Json} {e : Event}
    (hn : nonce.length = 32) (hm : CStr method) (hml : 6 * method.length ≤ 255) (hg : Good j)
    (hh : height j < nestingLimit) (hlen : 6 * method.length + (print false 0 j).length ≤ 8168)
    (h : request E now (some nonce) aux sk wallet method (print false 0 j) = .ok e) :
    e.kind = 23194 ∧ e.pubkey = pk ∧ e.createdAt = now ∧ verify E.crypto E.build e = .ok () ∧
      e.tags = [[c!"p", Hex.Spec.hexText wallet], [c!"encryption", c!"nip44_v2"]] ∧
      ∃ t, Nip44.decrypt E.nc E.b64 E.cfg wsk pk e.text = .ok t ∧
        parse t = some (.obj [(c!"method", .str method), (c!"params", j)]) := by
  unfold request at h
  rw [hpk] at h
  simp only at h
  obtain ⟨e1, h1, k1⟩ := Res.bind_eq_ok.1 h
  obtain ⟨e2, h2, k2⟩ := Res.bind_eq_ok.1 k1
  obtain ⟨t, h3, k3⟩ := Res.bind_eq_ok.1 k2
  obtain ⟨ct, h4, k4⟩ := Res.bind_eq_ok.1 k3
  obtain ⟨e3, h5, k5⟩ := Res.bind_eq_ok.1 k4
  obtain ⟨t', g1, g2, g3⟩ := payload_parse hm hml hg hh hlen
  rw [g1] at h3
  simp only [Res.ok.injEq] at h3
  subst h3
  have hdec := Nip44.Props.C15_roundtrip_partial hN hB hcfg hn (by omega) h4
  obtain ⟨v1, v2, v3⟩ := Event.Props.C19_signed_verifies hC k5
  have tag : ∀ {a b : Event} {v : List Bytes}, addTag E.cfg a v = .ok b → b = { a with tags := a.tags ++ [v] } := by
    intro a b v hab
    unfold addTag at hab
    split at hab
    · simp at hab
    split at hab
    · simp at hab
    · simp only [Res.ok.injEq] at hab; exact hab.symm
  have t1 := tag h1
  have t2 := tag h2
  unfold computeId at h5
  obtain ⟨x, -, h5⟩ := Res.bind_eq_ok.1 h5
  simp only [Res.ok.injEq] at h5
  rw [hpk, Option.some.injEq] at v2
  obtain ⟨s1, s2, s3, s4, s5⟩ := v3
  have q3 : e3 = { e2 with id := E.crypto.sha256 x, content := some ct } := h5.symm
  rw [q3] at s2 s3 s4 s5
  rw [t2] at s2 s3 s4 s5
  rw [t1] at s2 s3 s4 s5
  refine ⟨s3, v2.symm, s2, v1, ?_, t', ?_, g2⟩
  · rw [s4, Hex.hexEncode_eq]; rfl
  · have : e.text = ct := s5
    rw [this]; exact hdec

/-- Surroundings with toy cryptography. -/
def toyEnv : Env := ⟨Nip44.Props.toyNc, Nip44.Props.toyB64, Event.Props.toyCrypto, none, .cjson id fun _ => []⟩

/-- The hypotheses are met: a request for the balance. -/
example : (request toyEnv 5 (some (List.replicate 32 1)) (some []) (List.replicate 32 1) (List.replicate 32 4)
    (c!"get_balance") (print false 0 (.obj []))).isOk = true := by
  decide +kernel

theorem strEnd_run {c : UInt8} (h1 : c ≠ 0x22) (h2 : c ≠ 0x5c) (n : Nat) : strEnd (List.replicate n c) = none := by
  induction n with
  | zero => rfl
  | succ n ih => rw [List.replicate_succ, strEnd_plain h1 h2, ih]; rfl

/-- A request whose parameters are a string without end. -/
theorem parse_cut {z : Bytes} (hz : strEnd z = none) : parse ((c!"{\"method\":\"m\",\"params\":\"") ++ z) = none := by
  rw [show ((c!"{\"method\":\"m\",\"params\":\"") ++ z) =
      0x7b :: 0x22 :: ((c!"method") ++ 0x22 :: 0x3a :: (0x22 :: ((c!"m") ++ 0x22 :: (0x2c :: (0x22 :: ((c!"params") ++ 0x22 :: 0x3a ::
        (0x22 :: z))))))) from rfl]
  unfold parse
  have hl : ∀ l : Bytes, 23 ≤ l.length → ∃ f, 2 * l.length + 2 = f + 5 := fun l h => ⟨2 * l.length - 3, by omega⟩
  obtain ⟨f, hf⟩ := hl (0x7b :: 0x22 :: ((c!"method") ++ 0x22 :: 0x3a :: (0x22 :: ((c!"m") ++ 0x22 :: (0x2c :: (0x22 :: ((c!"params") ++ 0x22 :: 0x3a ::
        (0x22 :: z)))))))) (by simp only [List.length_append, List.length_cons, List.length_nil]; omega)
  rw [hf, skipWs_cons (by decide), value_obj _ _ (by decide) (by decide) (by decide),
    members_step (escaped_plain (by unfold Plain; decide)) (by decide), skipWs_cons (by decide),
    value_str (escaped_plain (by unfold Plain; decide)) (by decide)]
  simp only [skipWs_cons (show ¬ (0x2c : UInt8) ≤ 0x20 by decide), if_true, skipWs_cons (show ¬ (0x22 : UInt8) ≤ 0x20 by decide)]
  rw [members_step (escaped_plain (by unfold Plain; decide)) (by decide), skipWs_cons (by decide)]
  have : parseValue (f + 2) (0 + 1) (0x22 :: z) = none := by
    rw [parseValue.eq_def]
    simp only
    rw [isPrefix_ne _ (by decide), isPrefix_ne _ (by decide), isPrefix_ne _ (by decide)]
    simp only [Bool.false_eq_true, if_false, if_true]
    unfold parseStr
    rw [hz]
    rfl
  rw [this]
  rfl

theorem escape_run (k : Nat) : escape (List.replicate k 0x61) = List.replicate k 0x61 := by
  induction k with
  | zero => rfl
  | succ k ih => rw [List.replicate_succ]; show escChar 0x61 ++ escape _ = _; rw [ih]; rfl

theorem cut_text {n m : Nat} (h : 24 ≤ m) (hn : m ≤ n) :
    (((c!"{\"method\":\"") ++ c!"m" ++ c!"\",\"params\":" ++ (0x22 :: List.replicate n 0x61 ++ [0x22]) ++ c!"}" : Bytes)).take m =
      (c!"{\"method\":\"m\",\"params\":\"") ++ List.replicate (m - 24) 0x61 := by
  have e1 : ((c!"{\"method\":\"") ++ c!"m" ++ c!"\",\"params\":" ++ (0x22 :: List.replicate n 0x61 ++ [0x22]) ++ c!"}" : Bytes) =
      (c!"{\"method\":\"m\",\"params\":\"") ++ (List.replicate n 0x61 ++ [0x22, 0x7d]) := by simp
  rw [e1, List.take_append, List.take_append_of_le_length (l₁ := List.replicate n 0x61) (by rw [List.length_replicate]; omega),
    List.take_replicate, List.take_of_length_le (l := c!"{\"method\":\"m\",\"params\":\"") h,
    show List.length (c!"{\"method\":\"m\",\"params\":\"") = 24 from rfl, Nat.min_eq_left (by omega)]

/-- C98 fails for long parameters: the text is cut at 8191 bytes and what the wallet decrypts is no JSON. -/
theorem C98_long_refuted {n : Nat} (hn : 8192 ≤ n) : ∃ t, payload (c!"m") (print false 0 (.str (List.replicate n 0x61))) = .ok t ∧
    parse t = none := by
  have hg : Good (.str (List.replicate n 0x61)) := by
    simp only [Good, CStr, List.mem_replicate]; rintro ⟨-, h⟩; exact absurd h (by decide)
  have hp : parse (print false 0 (.str (List.replicate n 0x61))) = some (.str (List.replicate n 0x61)) := by
    have := parse_print false 0 _ hg (by simp [height]) [] (by intro c hc; simp at hc)
    rwa [List.append_nil] at this
  have hj : (jsonEscape 256 (c!"m")).getD [] = c!"m" := by decide
  unfold payload
  rw [hp]
  refine ⟨_, rfl, ?_⟩
  rw [hj]
  simp only [print, quoted, escape_run]
  rw [cut_text (by decide) (by omega)]
  exact parse_cut (strEnd_run (by decide) (by decide) _)

/-- C98 fails for parameters with text behind the JSON value: they add members to the request, here a second
`method`. -/
theorem C98_inject_refuted : ∃ p t, payload (c!"get_info") p = .ok t ∧
    parse t = some (.obj [(c!"method", .str (c!"get_info")), (c!"params", .obj []), (c!"method", .str (c!"pay"))]) := by
  refine ⟨c!"{},\"method\":\"pay\"", c!"{\"method\":\"get_info\",\"params\":{},\"method\":\"pay\"}", by decide +kernel, by decide +kernel⟩

/-! ## C42 -/

/-- The reply a wallet writes: a result or an error. -/
def replyTree (type : Bytes) (result : Json) : Json :=
  .obj [(c!"result_type", .str type), (c!"error", .null), (c!"result", result)]

/-- An error reply. -/
def errorTree (type code message : Bytes) : Json :=
  .obj [(c!"result_type", .str type), (c!"error", .obj [(c!"code", .str code), (c!"message", .str message)]), (c!"result", .null)]

theorem saysNip44_iff {tags : List (List Bytes)} (h : saysNip44 tags = true) :
    ∃ v, tagValue tags (c!"encryption") = some v ∧ ∃ a b, v = a ++ c!"nip44" ++ b := by
  induction tags with
  | nil => simp [saysNip44] at h
  | cons t ts ih =>
    match t with
    | n :: v :: r =>
      simp only [saysNip44] at h
      unfold tagValue
      split at h
      · rename_i hn
        simp only [hn, if_true]
        exact ⟨v, rfl, (Text.contains_iff _ _).1 h⟩
      · rename_i hn
        simp only [hn, if_false]
        exact ih h
    | [n] => simp only [saysNip44] at h; unfold tagValue; exact ih h
    | [] => simp only [saysNip44] at h; unfold tagValue; exact ih h

/-- C42: the client reads what the wallet has encrypted for it, if no `p` tag names another key. Missing: a `p`
tag naming the client, as NIP-47 prescribes (`C42_p_tag_refuted`), and responses without an `encryption` tag
(`C42_no_tag_refuted`). -/
theorem C42_response_partial {E : Env} {sk pk wsk wallet : Bytes} (hN : Nip44.Spec.NcOK E.nc wsk wallet sk pk)
    (hB : Nip44.Spec.B64OK E.b64) (hcfg : Nip44.Spec.CfgOK E.cfg) {nonce text ct : Bytes} (hn : nonce.length = 32)
    (hl : text.length ≤ 61440) (henc : Nip44.encrypt E.nc E.b64 E.cfg (some nonce) wsk pk text = .ok ct)
    {e : Event} (hk : e.kind = 23195) (hc : e.content = some ct) (hp : e.pubkey = wallet)
    (htag : saysNip44 e.tags = true)
    (hpt : ∀ t ∈ e.tags, ∀ v r, t = c!"p" :: v :: r → ∀ b, hexDecode v 32 = some b → b = wallet) :
    openResponse E e sk = .ok text := by
  have hpeer : peer e = wallet := by
    unfold peer
    cases hf : e.tags.findSome? fun t => match t with
        | n :: v :: _ => if n = c!"p" then hexDecode v 32 else none
        | _ => none with
    | none => simpa using hp
    | some b =>
      obtain ⟨t, ht, hb⟩ := List.exists_of_findSome?_eq_some hf
      match t with
      | n :: v :: r =>
        simp only at hb
        split at hb
        · rename_i hn'; subst hn'; simpa using hpt _ ht v r rfl b hb
        · simp at hb
      | [_] => simp at hb
      | [] => simp at hb
  unfold openResponse
  rw [if_neg (by omega), if_pos htag, hc, hpeer]
  exact Nip44.Props.C15_roundtrip_partial hN hB hcfg hn hl henc

/-- C42: a reply with a result is read completely. -/
theorem C42_result {r : Bytes → Json} {type : Bytes} {j : Json} (ht : CStr type) (hg : Good j) (hh : height j < nestingLimit)
    (fmt : Bool) : replyOf r (print fmt 0 (replyTree type j)) = .ok ⟨some type, some (reprint r j), none, none⟩ := by
  have := parse_print fmt 0 (replyTree type j) (by simp only [replyTree, Good, GoodM]; exact ⟨by decide, ht, by decide, trivial, by decide, hg, trivial⟩)
    (by simp only [replyTree, height, heightM]; omega) [] (by intro c hc; simp at hc)
  rw [List.append_nil] at this
  unfold replyOf
  rw [this]
  rfl

/-- C42: code and message of an error are read completely. -/
theorem C42_error {r : Bytes → Json} {type code message : Bytes} (ht : CStr type) (hc : CStr code) (hm : CStr message)
    (fmt : Bool) : ∃ x, replyOf r (print fmt 0 (errorTree type code message)) = .ok ⟨some type, x, some code, some message⟩ := by
  have := parse_print fmt 0 (errorTree type code message) (by
    simp only [errorTree, Good, GoodM]; exact ⟨by decide, ht, by decide, ⟨by decide, hc, by decide, hm, trivial⟩, by decide, trivial, trivial⟩)
    (by simp [errorTree, height, heightM, nestingLimit]) [] (by intro c hc; simp at hc)
  rw [List.append_nil] at this
  unfold replyOf
  rw [this]
  exact ⟨_, rfl⟩

/-- Toy cryptography in which the conversation key depends on both keys: it is the sum of the first bytes; the MAC
repeats it. The public key of a secret key is the secret key. -/
def sumNc : Nip44.Nc :=
  ⟨fun a b => some [a.headD 0 + b.headD 0], fun k _ => k, fun _ _ x => x, fun k _ => List.replicate 32 (k.headD 0)⟩

theorem sumNc_ok (a b : Bytes) : Nip44.Spec.NcOK sumNc a a b b :=
  ⟨by simp [sumNc, UInt8.add_comm], fun _ _ _ => rfl, fun _ _ _ => rfl, fun _ _ => rfl⟩

/-- Surroundings with it. -/
def sumEnv : Env := ⟨sumNc, Nip44.Props.toyB64, Event.Props.toyCrypto, none, .cjson id fun _ => []⟩

/-- C42 fails for responses built as NIP-47 says, with a `p` tag naming the client: the client takes its own key
for the wallet's, and decryption fails. -/
theorem C42_p_tag_refuted : ∃ (sk wallet ct : Bytes) (e : Event), Nip44.Spec.NcOK sumNc wallet wallet sk sk ∧
    Nip44.encrypt sumNc Nip44.Props.toyB64 none (some (List.replicate 32 1)) wallet sk (c!"{}") = .ok ct ∧
    e.kind = 23195 ∧ e.content = some ct ∧ e.pubkey = wallet ∧ saysNip44 e.tags = true ∧
    e.tags = [[c!"p", Hex.Spec.hexText sk], [c!"encryption", c!"nip44_v2"]] ∧
    openResponse sumEnv e sk = .err .invalidSignature := by
  refine ⟨List.replicate 32 5, List.replicate 32 7, _, ⟨List.replicate 32 0, List.replicate 32 7, 0, 23195,
    [[c!"p", Hex.Spec.hexText (List.replicate 32 5)], [c!"encryption", c!"nip44_v2"]], some _, []⟩, sumNc_ok _ _, rfl, rfl, rfl, rfl, by decide +kernel, rfl, ?_⟩
  decide +kernel

/-- C42 fails for responses without an `encryption` tag: they are rejected unread. -/
theorem C42_no_tag_refuted (E : Env) (e : Event) (sk : Bytes) (hk : e.kind = 23195)
    (h : ∀ t ∈ e.tags, t.head? ≠ some (c!"encryption")) : openResponse E e sk = .err .notSupported := by
  have : saysNip44 e.tags = false := by
    generalize e.tags = ts at h
    induction ts with
    | nil => rfl
    | cons t ts ih =>
      have ih' := ih fun u hu => h u (by simp [hu])
      have ht := h t (by simp)
      match t with
      | n :: v :: r =>
        simp only [List.head?_cons, ne_eq, Option.some.injEq] at ht
        simp only [saysNip44, ht, if_false, ih']
      | [_] => simp only [saysNip44, ih']
      | [] => simp only [saysNip44, ih']
  unfold openResponse
  rw [if_neg (by omega), if_neg (by simp [this])]

/-! ## C101 -/

/-- C101: the client reads a notification the wallet has encrypted for it: type and body. Missing: texts of more than
61440 bytes. -/
theorem C101_notification_partial {E : Env} {r : Bytes → Json} {sk pk wsk wallet : Bytes} (hN : Nip44.Spec.NcOK E.nc wsk wallet sk pk)
    (hB : Nip44.Spec.B64OK E.b64) (hcfg : Nip44.Spec.CfgOK E.cfg) {nonce type ct : Bytes} {j : Json} (hn : nonce.length = 32)
    (ht : CStr type) (hg : Good j) (hh : height j < nestingLimit)
    (hl : (print false 0 (.obj [(c!"notification_type", .str type), (c!"notification", j)])).length ≤ 61440)
    (henc : Nip44.encrypt E.nc E.b64 E.cfg (some nonce) wsk pk
      (print false 0 (.obj [(c!"notification_type", .str type), (c!"notification", j)])) = .ok ct)
    {e : Event} (hk : e.kind = 23197) (hc : e.content = some ct) (hp : e.pubkey = wallet) :
    parseNotification E r e sk = .ok (some type, some (reprint r j)) := by
  have hd := Nip44.Props.C15_roundtrip_partial hN hB hcfg hn hl henc
  have := parse_print false 0 (.obj [(c!"notification_type", .str type), (c!"notification", j)])
    (by simp only [Good, GoodM]; exact ⟨by decide, ht, by decide, hg, trivial⟩)
    (by simp only [height, heightM]; omega) [] (by intro c hc; simp at hc)
  rw [List.append_nil] at this
  have h0 := print_cstr false 0 (.obj [(c!"notification_type", .str type), (c!"notification", j)])
    (by simp only [Good, GoodM]; exact ⟨by decide, ht, by decide, hg, trivial⟩)
  unfold parseNotification
  rw [if_neg (by omega), if_neg (by omega), hc, hp]
  simp only [hd, Res.bind_ok, cstr_self h0, this]
  rfl

/-- C101 fails for long notifications: whatever the keys and the nonce, a notification of 61441 to 65535 bytes is
encrypted by the wallet and cannot be read by the client. -/
theorem C101_long_refuted {E : Env} {r : Bytes → Json} {sk pk wsk wallet ck : Bytes} (hN : Nip44.Spec.NcOK E.nc wsk wallet sk pk)
    (hB : Nip44.Spec.B64OK E.b64) (hcfg : E.cfg = none) (hk : E.nc.conv wsk pk = some ck) {nonce m : Bytes} (hn : nonce.length = 32)
    (h1 : 61440 < m.length) (h2 : m.length ≤ 65535) :
    ∃ ct, Nip44.encrypt E.nc E.b64 E.cfg (some nonce) wsk pk m = .ok ct ∧
      ∀ e : Event, e.kind = 23197 → e.content = some ct → e.pubkey = wallet → parseNotification E r e sk = .err .invalidParam := by
  obtain ⟨ct, g1, g2⟩ := Nip44.Props.C15_long_refuted hN hB hn h1 h2 hk
  refine ⟨ct, by rw [hcfg]; exact g1, ?_⟩
  intro e k1 k2 k3
  unfold parseNotification
  rw [if_neg (by omega), if_neg (by omega), k2, k3, hcfg]
  simp only [g2]
  rfl

/-! ## C102 -/

theorem words_eq (s : Bytes) : words s = Text.tokens 0x20 s := by
  unfold words
  apply List.take_of_length_le
  rw [← Text.split_length]
  exact List.length_filter_le _ _

/-- C102: the capabilities, notifications and encryptions of an info event are the words of its content and of its
first `notifications` and `encryption` tags. -/
theorem C102_info {e : Event} {ws ns es : List Bytes} {nv ev : Bytes} (hk : e.kind = 13194)
    (hw : ∀ w ∈ ws ++ ns ++ es, 0x20 ∉ w ∧ w ≠ []) (hc : e.content = some (Text.join 0x20 ws))
    (hn : tagValue e.tags (c!"notifications") = some nv) (he : tagValue e.tags (c!"encryption") = some ev)
    (hnv : nv = Text.join 0x20 ns) (hev : ev = Text.join 0x20 es) : parseInfo e = .ok (ws, ns, es) := by
  unfold parseInfo tagWords
  rw [if_neg (by omega), hc, hn, he]
  simp only [words_eq, hnv, hev]
  rw [Text.tokens_join fun t ht => hw t (by simp [ht]), Text.tokens_join fun t ht => hw t (by simp [ht]),
    Text.tokens_join fun t ht => hw t (by simp [ht])]

example : parseInfo ⟨[], [], 0, 13194, [[c!"encryption", c!"nip44_v2 nip04"]], some (c!"pay_invoice  get_balance"), []⟩ =
    .ok ([c!"pay_invoice", c!"get_balance"], [], [c!"nip44_v2", c!"nip04"]) := by decide +kernel

/-- C102 fails for an event whose content was never set: a null pointer is copied. -/
theorem C102_null_refuted : ∃ e : Event, e.kind = 13194 ∧ parseInfo e = .ub :=
  ⟨⟨[], [], 0, 13194, [], none, []⟩, rfl, rfl⟩

/-! ## C103 -/

/-- C103: the balance in a result is the number the wallet wrote. -/
theorem C103_balance_partial {real : Bytes → Int} {root : Json} {n : Nat} (hg : Good root) (hh : height root ≤ nestingLimit)
    (hn : n < 10 ^ 15) (h : get root (c!"balance") = some (.num (Num.decNat n))) (fmt : Bool) :
    parseBalance real (print fmt 0 root) = .ok n := by
  have := parse_print fmt 0 root hg hh [] (by intro c hc; simp at hc)
  rw [List.append_nil] at this
  unfold parseBalance
  rw [this]
  have hi := Event.int64_decInt real (n := (n : Int)) (by omega)
  rw [Event.decInt_nat] at hi
  simp only [h, Option.bind_some, asNum, toU64, hi]
  rw [if_neg (by omega)]
  simp

/-- C103 fails for negative numbers: the conversion is undefined. -/
theorem C103_negative_refuted (real : Bytes → Int) : parseBalance real (c!"{\"balance\":-1}") = .ub := by
  have : parse (c!"{\"balance\":-1}") = some (.obj [(c!"balance", .num (c!"-1"))]) := by decide +kernel
  unfold parseBalance
  rw [this]
  have hi : int64 real (c!"-1") = -1 := by
    unfold int64; rw [show plainInt (c!"-1") = some (-1) by decide +kernel]; rfl
  simp only [show get (.obj [(c!"balance", .num (c!"-1"))]) (c!"balance") = some (.num (c!"-1")) by decide +kernel,
    Option.bind_some, asNum, toU64, hi]
  rfl

/-- C103: preimage and fees of a payment result. -/
theorem C103_paid_partial {real : Bytes → Int} {root : Json} {n : Nat} {p : Bytes} (hg : Good root) (hh : height root ≤ nestingLimit)
    (hn : n < 10 ^ 15) (h1 : get root (c!"preimage") = some (.str p)) (h : get root (c!"fees_paid") = some (.num (Num.decNat n)))
    (fmt : Bool) : parsePaid real (print fmt 0 root) = .ok (some p, some n) := by
  have := parse_print fmt 0 root hg hh [] (by intro c hc; simp at hc)
  rw [List.append_nil] at this
  unfold parsePaid
  rw [this]
  have hi := Event.int64_decInt real (n := (n : Int)) (by omega)
  rw [Event.decInt_nat] at hi
  simp only [h, h1, Option.bind_some, asNum, asStr, toU64, hi]
  rw [if_neg (by omega)]
  simp

/-- C103: the methods of an info result, when all of them are strings. -/
theorem C103_methods_partial {root : Json} {a : Bytes} {ms : List Bytes} (hg : Good root) (hh : height root ≤ nestingLimit)
    (h1 : get root (c!"alias") = some (.str a)) (h : get root (c!"methods") = some (.arr (ms.map .str))) (fmt : Bool) :
    parseInfoResponse (print fmt 0 root) = .ok (some a, some (ms.map some)) := by
  have := parse_print fmt 0 root hg hh [] (by intro c hc; simp at hc)
  rw [List.append_nil] at this
  unfold parseInfoResponse methodsOf
  rw [this]
  simp only [h, h1, Option.bind_some, asStr, asArr, Option.map_some, List.map_map]
  rfl

example : ∃ root, Good root ∧ height root ≤ nestingLimit ∧ get root (c!"balance") = some (.num (Num.decNat 12)) ∧
    get root (c!"methods") = some (.arr ([c!"pay_invoice"].map .str)) :=
  ⟨.obj [(c!"balance", .num (Num.decNat 12)), (c!"methods", .arr [.str (c!"pay_invoice")])],
    by simp only [Good, GoodM, GoodL]; exact ⟨by decide, Event.goodNum_decNat (by decide), by decide, ⟨by decide, trivial⟩, trivial⟩,
    by decide, by decide +kernel, by decide +kernel⟩

/-- C103 fails when a method is not a string: the caller gets an entry that was never written. -/
theorem C103_methods_refuted : parseInfoResponse (c!"{\"methods\":[\"a\",7]}") = .ok (none, some [some (c!"a"), none]) := by
  decide +kernel

end Nostr.Nip47.Props
