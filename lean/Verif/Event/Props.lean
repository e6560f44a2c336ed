import Verif.Event.JsonLemmas

/-! # Property theorems: C17, C19, C20, C78, C79, C80 -/

namespace Nostr.Event.Props
open Nostr Nostr.Event Nostr.Json Spec

/-! ## Concrete events for the examples and counterexamples -/

/-- A small note with a tag, a quote in the content and a newline. -/
def note : Event :=
  ⟨List.replicate 32 1, List.replicate 32 0xab, 1700000000, 1,
    [[c!"e", c!"00ff"], [c!"t", c!"a\"b"]], some (c!"hi\n\"x\""), List.replicate 64 7⟩

/-- `n` tags `[""]`, all other fields as in `note`. -/
def manyTags (n : Nat) (content : Bytes) : Event :=
  { note with tags := List.replicate n [[]], content := some content }

theorem note_wf : WF note := by
  refine ⟨by decide, by decide, by decide, by decide, by decide, ?_, by decide⟩
  decide

theorem many_wf {n : Nat} (s : Bytes) (h : CStr s) : WF (manyTags n s) := by
  refine ⟨note_wf.id, note_wf.pubkey, note_wf.sig, note_wf.time, note_wf.kind, ?_, h⟩
  intro t ht
  rw [(List.mem_replicate.1 ht).2]
  simp [CStr]

theorem many_size (n : Nat) (s : Bytes) : jsonSize (manyTags n s) = 512 + (escape s).length + 4 * n := by
  unfold jsonSize
  rw [show (manyTags n s).tags = List.replicate n [[]] from rfl, sum_empties]
  rfl

/-- The preimage of `note` up to the tags. -/
def preText : Bytes :=
  c!"[0,\"" ++ Hex.hexEncode note.pubkey ++ c!"\"," ++ Num.decInt note.createdAt ++ c!"," ++
    Num.decNat note.kind ++ c!",["

theorem pre_length : preText.length = 84 := by decide +kernel

theorem head_eq (n : Nat) (s : Bytes) :
    idHead (manyTags n s) = preText ++ tagsText true (List.replicate n [[]]) := rfl

theorem many_head (n : Nat) (s : Bytes) : (idHead (manyTags (n + 1) s)).length = 84 + 5 * n + 4 := by
  rw [head_eq, List.length_append, tagsText_empties, pre_length]
  simp
  omega

/-- The events for which the two builds are shown to work: at most 400 tags that consist of control characters (or of nothing) for the
build without cJSON, and any number of others; a timestamp of at most 15 digits for the build with cJSON. -/
def InRange : Build → Event → Prop
  | .plain, e => thinTags e ≤ 400
  | .cjson _ _, e => e.createdAt.natAbs < 10 ^ 15

theorem serialize_inRange {b : Build} {e : Event} (h : WF e) (hr : InRange b e) :
    serialize b e = .ok (idText e) := by
  cases b with
  | plain => exact serializePlain_fit (fits_400 h hr)
  | cjson td fr =>
    simp only [serialize]
    rw [idTree_eq td fr h.kind hr, idText_eq]

/-! ## C17 -/

/-- C17 (part): in either build two events have the same id preimage exactly when they agree in public
key, timestamp, kind, tags and content.  Missing: plain-build events with more than 400 tags of control characters and
cJSON-build events with a timestamp of 16 or more digits, for which the property fails (below). -/
theorem C17_injective_partial {b : Build} {e1 e2 : Event} (h1 : WF e1) (h2 : WF e2)
    (r1 : InRange b e1) (r2 : InRange b e2) :
    serialize b e1 = serialize b e2 ↔ SameSigned e1 e2 := by
  rw [serialize_inRange h1 r1, serialize_inRange h2 r2]
  constructor
  · intro h
    exact idText_inj h1 h2 (by simpa using h)
  · intro h
    rw [sameSigned_text h]

example : ∃ e1 e2 : Event, WF e1 ∧ WF e2 ∧ InRange .plain e1 ∧ InRange .plain e2 ∧ ¬ SameSigned e1 e2 :=
  ⟨note, { note with tags := [[c!"e", c!"00ff", c!"t"], [c!"a\"b"]] }, note_wf,
    ⟨by decide, by decide, by decide, by decide, by decide, by decide, by decide⟩, by
      show thinTags _ ≤ 400; decide, by show thinTags _ ≤ 400; decide, fun h => absurd h.2.2.2.1 (by decide)⟩

/-- C17 fails for the plain build: with 430 one-value tags the buffer is too small, the tail of the
content is cut off, and two events with different content share a preimage (hence an id). -/
theorem C17_plain_refuted : ∃ e1 e2 : Event, WF e1 ∧ WF e2 ∧ ¬ SameSigned e1 e2 ∧
    (serialize .plain e1).isOk ∧ serialize .plain e1 = serialize .plain e2 := by
  refine ⟨manyTags 430 (c!"pay 1000"), manyTags 430 (c!"pay 9999"), many_wf _ (by decide),
    many_wf _ (by decide), fun h => absurd h.2.2.2.2 (by decide), ?_, ?_⟩
  · rw [show serialize .plain _ = serializePlain _ from rfl,
      serializePlain_trunc (by rw [many_head, many_size]; decide)]
    rfl
  · have cut : ∀ c : Bytes, CStr c → c.length = 4 → (∀ x ∈ c, Num.isDigit x) →
        serialize .plain (manyTags 430 (c!"pay " ++ c)) =
          .ok ((idHead (manyTags 430 []) ++ c!"],\"pay").take 2239) := by
      intro c hc hl hd
      have he : escape (c!"pay " ++ c) = c!"pay " ++ c := by
        unfold escape
        rw [List.flatMap_append]
        congr 1
        clear hc hl
        induction c with
        | nil => rfl
        | cons x c ih =>
          have h1 : ∀ n < 256, Num.isDigit (UInt8.ofNat n) → escChar (UInt8.ofNat n) = [UInt8.ofNat n] := by
            decide +kernel
          have h2 := h1 x.toNat x.toNat_lt
          rw [UInt8.ofNat_toNat] at h2
          rw [List.flatMap_cons, h2 (hd x (by simp)), ih (fun y hy => hd y (by simp [hy]))]
          rfl
      have hs := many_size 430 (c!"pay " ++ c)
      rw [he, List.length_append, hl] at hs
      have hh := many_head 429 (c!"pay " ++ c)
      have ht : (manyTags 430 (c!"pay " ++ c)).text = c!"pay " ++ c := rfl
      rw [show serialize .plain _ = serializePlain _ from rfl,
        serializePlain_trunc (by rw [hs, hh]; decide), hs, idText_split, ht, he]
      rw [show idHead (manyTags 430 (c!"pay " ++ c)) = idHead (manyTags 430 []) from rfl] at hh ⊢
      rw [List.take_append, List.take_append (l₁ := idHead _), hh]
      rfl
    rw [show c!"pay 1000" = c!"pay " ++ c!"1000" from rfl, show c!"pay 9999" = c!"pay " ++ c!"9999" from rfl,
      cut (c!"1000") (by decide) rfl (by decide), cut (c!"9999") (by decide) rfl (by decide)]

/-- C17 fails for the cJSON build: timestamps pass through `double`, in which 2^53 and 2^53+1 coincide. -/
theorem C17_cjson_refuted (td : Int → Int) (fr : Int → Bytes) (hd : td (2 ^ 53 + 1) = td (2 ^ 53)) :
    ∃ e1 e2 : Event, WF e1 ∧ WF e2 ∧ ¬ SameSigned e1 e2 ∧
      serialize (.cjson td fr) e1 = serialize (.cjson td fr) e2 := by
  refine ⟨{ note with createdAt := 2 ^ 53 + 1 }, { note with createdAt := 2 ^ 53 }, ?_, ?_, ?_, ?_⟩
  · exact ⟨by decide, by decide, by decide, by decide, by decide, by decide, by decide⟩
  · exact ⟨by decide, by decide, by decide, by decide, by decide, by decide, by decide⟩
  · intro h
    exact absurd h.2.1 (by decide)
  · have h1 : numTok td fr (2 ^ 53 + 1) = numTok td fr (2 ^ 53) := by
      unfold numTok
      rw [if_neg (by decide), if_neg (by decide), hd]
    simp only [serialize, idTree, h1, Event.text]

/-! ## C19 -/

/-- What is assumed of the cryptography: the hash has 32 bytes, public keys are valid, and signatures made
with a secret key verify under its public key. -/
structure CryptoOK (C : Crypto) : Prop where
  hash : ∀ t, (C.sha256 t).length = 32
  pub : ∀ sk pk, C.pubOf sk = some pk → C.validPub pk = true
  sig : ∀ sk pk m r s, C.pubOf sk = some pk → C.sign sk m r = some s → C.verify pk m s = true

/-- A toy instance: hash = first 32 bytes padded, signature = message ++ message. -/
def toyCrypto : Crypto where
  sha256 t := (t ++ List.replicate 32 0).take 32
  pubOf sk := some sk
  sign _ m _ := some (m ++ m)
  validPub _ := true
  verify _ m s := s == m ++ m

theorem toy_ok : CryptoOK toyCrypto :=
  ⟨fun t => by simp [toyCrypto], fun _ _ _ => rfl, fun sk pk m r s _ h => by
    simp only [toyCrypto, Option.some.injEq] at h
    simp [toyCrypto, h]⟩

/-- C19, completeness: whenever signing succeeds the signed event verifies, is signed by the public key of
the secret key, and no other field is changed. -/
theorem C19_signed_verifies {C : Crypto} (hC : CryptoOK C) {b : Build} {rand : Option Bytes} {sk : Bytes}
    {e e' : Event} (h : sign C b rand sk e = .ok e') :
    verify C b e' = .ok () ∧ C.pubOf sk = some e'.pubkey ∧
      SameSigned e' { e with pubkey := e'.pubkey } := by
  unfold sign at h
  cases hp : C.pubOf sk with
  | none => simp [hp] at h
  | some pk =>
    simp only [hp] at h
    unfold computeId at h
    rw [Res.bind_eq_ok] at h
    obtain ⟨e1, h1, h⟩ := h
    rw [Res.bind_eq_ok] at h1
    obtain ⟨t, ht, h1⟩ := h1
    simp only [Res.ok.injEq] at h1
    subst h1
    cases rand with
    | none => simp at h
    | some r =>
      simp only at h
      cases hs : C.sign sk (C.sha256 t) r with
      | none => simp [hs] at h
      | some s =>
        simp only [hs, Res.ok.injEq] at h
        subst h
        refine ⟨?_, rfl, ⟨rfl, rfl, rfl, rfl, rfl⟩⟩
        have hser : serialize b ⟨C.sha256 t, pk, e.createdAt, e.kind, e.tags, e.content, s⟩ = .ok t := by
          rw [← ht]; cases b <;> rfl
        unfold verify computeId
        simp only [hser, Res.bind_ok]
        rw [if_neg (by
          intro hne
          exact hne ((Hex.ctMemcmp_iff rfl).2 rfl))]
        simp [hC.pub sk pk hp, hC.sig sk pk _ r s hp hs]

example : ∃ e', sign toyCrypto .plain (some []) (List.replicate 32 3) note = .ok e' :=
  ⟨_, by
    unfold sign computeId
    have : WF { note with pubkey := List.replicate 32 3 } :=
      ⟨by decide, by decide, by decide, by decide, by decide, by decide, by decide⟩
    simp only [toyCrypto]
    rw [serialize_inRange this (by show thinTags _ ≤ 400; decide)]
    rfl⟩

/-- C19, soundness: verification succeeds exactly when the id is the hash of the current preimage, the
public key is valid and the signature over the id verifies under the event's own public key. -/
theorem C19_verify_iff {C : Crypto} (hC : CryptoOK C) {b : Build} {e : Event} (hid : e.id.length = 32) :
    verify C b e = .ok () ↔ ∃ t, serialize b e = .ok t ∧ e.id = C.sha256 t ∧
      C.validPub e.pubkey = true ∧ C.verify e.pubkey e.id e.sig = true := by
  unfold verify computeId
  constructor
  · intro h
    rw [Res.bind_eq_ok] at h
    obtain ⟨e1, h1, h⟩ := h
    rw [Res.bind_eq_ok] at h1
    obtain ⟨t, ht, h1⟩ := h1
    simp only [Res.ok.injEq] at h1
    subst h1
    refine ⟨t, ht, ?_⟩
    split at h
    · simp at h
    · rename_i hm
      split at h
      · simp at h
      · rename_i hv
        split at h
        · simp at h
        · rename_i hs
          refine ⟨(Hex.ctMemcmp_iff (by rw [hid, hC.hash])).1 (by simpa using hm), by simpa using hv,
            by simpa using hs⟩
  · rintro ⟨t, ht, h1, h2, h3⟩
    simp only [ht, Res.bind_ok, ← h1]
    rw [if_neg (by
      intro hne
      exact hne ((Hex.ctMemcmp_iff rfl).2 rfl))]
    simp [h2, h3]

example : (note.id).length = 32 := rfl

/-- C19, tampering (part): if an event and a version of it with any signed field changed but the same id
both verify, then the hash collides on two explicitly different texts.  Outside `InRange` preimages can
coincide (see the C17 refutations). -/
theorem C19_tamper_partial {C : Crypto} (hC : CryptoOK C) {b : Build} {e e' : Event} (w : WF e) (w' : WF e')
    (r : InRange b e) (r' : InRange b e') (hid : e.id = e'.id) (hd : ¬ SameSigned e e')
    (hv : verify C b e = .ok ()) (hv' : verify C b e' = .ok ()) :
    ∃ x y, serialize b e = .ok x ∧ serialize b e' = .ok y ∧ x ≠ y ∧ C.sha256 x = C.sha256 y := by
  obtain ⟨x, hx, h1, -⟩ := (C19_verify_iff hC w.id).1 hv
  obtain ⟨y, hy, h2, -⟩ := (C19_verify_iff hC w'.id).1 hv'
  refine ⟨x, y, hx, hy, ?_, by rw [← h1, ← h2, hid]⟩
  rintro rfl
  exact hd ((C17_injective_partial w w' r r').1 (by rw [hx, hy]))

/-! Non-vacuity of the tampering theorem: the toy hash keeps only the first 32 bytes, so it does collide. -/
def toyEvent (content : Bytes) : Event :=
  { note with id := c!"[0,\"abababababababababababababababab".take 32, content := some content,
              sig := c!"[0,\"abababababababababababababababab".take 32 ++
                      c!"[0,\"abababababababababababababababab".take 32 }

example : (toyEvent (c!"a")).id = (toyEvent (c!"b")).id ∧ ¬ SameSigned (toyEvent (c!"a")) (toyEvent (c!"b")) ∧
    verify toyCrypto .plain (toyEvent (c!"a")) = .ok () ∧ verify toyCrypto .plain (toyEvent (c!"b")) = .ok () :=
  ⟨rfl, fun h => absurd h.2.2.2.2 (by decide), by decide +kernel, by decide +kernel⟩

/-- The id preimage without cJSON of 430 tags and a text that does not fit: the end of the text is cut off. -/
theorem many_cut {pk : Bytes} (hpk : pk.length = 32) {c : Bytes} (hl : c.length = 4) (he : escape (c!"pay " ++ c) = c!"pay " ++ c) :
    serialize .plain { manyTags 430 (c!"pay " ++ c) with pubkey := pk } =
      .ok ((idHead { manyTags 430 [] with pubkey := pk } ++ c!"],\"pay").take 2239) := by
  have hs : jsonSize { manyTags 430 (c!"pay " ++ c) with pubkey := pk } = 512 + (escape (c!"pay " ++ c)).length + 4 * 430 :=
    many_size 430 (c!"pay " ++ c)
  rw [he, List.length_append, hl] at hs
  have hh : (idHead { manyTags 430 (c!"pay " ++ c) with pubkey := pk }).length = 84 + 5 * 429 + 4 := by
    rw [← many_head 429 (c!"pay " ++ c)]
    unfold idHead
    simp only [List.length_append, hexEncode_length, hpk]
    rfl
  have ht : ({ manyTags 430 (c!"pay " ++ c) with pubkey := pk } : Event).text = c!"pay " ++ c := rfl
  rw [show serialize .plain _ = serializePlain _ from rfl,
    serializePlain_trunc (by rw [hs, hh]; decide), hs, idText_split, ht, he]
  rw [show idHead { manyTags 430 (c!"pay " ++ c) with pubkey := pk } = idHead { manyTags 430 [] with pubkey := pk } from rfl] at hh ⊢
  rw [List.take_append, List.take_append (l₁ := idHead _), hh]
  rfl

/-- C19 fails in the build without cJSON, for any cryptography and every key that can sign: with 430 tags the text of
the event can be changed after signing and the event still verifies. -/
theorem C19_tamper_plain_refuted {C : Crypto} (hC : CryptoOK C) {sk pk r : Bytes} (hpk : C.pubOf sk = some pk) (hl : pk.length = 32)
    (hs : ∀ m, ∃ s, C.sign sk m r = some s) :
    ∃ e, sign C .plain (some r) sk (manyTags 430 (c!"pay 1000")) = .ok e ∧ e.content = some (c!"pay 1000") ∧
      verify C .plain e = .ok () ∧ verify C .plain { e with content := some (c!"pay 9999") } = .ok () := by
  have k1 := many_cut hl (c := c!"1000") rfl (by decide +kernel)
  have k2 := many_cut hl (c := c!"9999") rfl (by decide +kernel)
  obtain ⟨s, hs⟩ := hs (C.sha256 ((idHead { manyTags 430 [] with pubkey := pk } ++ c!"],\"pay").take 2239))
  have hsign : sign C .plain (some r) sk (manyTags 430 (c!"pay 1000")) = .ok { manyTags 430 (c!"pay 1000") with
      id := C.sha256 ((idHead { manyTags 430 [] with pubkey := pk } ++ c!"],\"pay").take 2239), pubkey := pk, sig := s } := by
    unfold sign computeId
    rw [hpk]
    simp only
    rw [show serialize .plain { manyTags 430 (c!"pay 1000") with pubkey := pk } = _ from k1]
    simp only [Res.bind_ok, hs]
  refine ⟨_, hsign, rfl, (C19_signed_verifies hC hsign).1, (C19_verify_iff hC (hC.hash _)).2 ⟨_, k2, rfl, hC.pub _ _ hpk,
    hC.sig _ _ _ _ _ hpk hs⟩⟩

example : toyCrypto.pubOf (List.replicate 32 3) = some (List.replicate 32 3) ∧ (List.replicate 32 (3 : UInt8)).length = 32 ∧
    ∀ m, ∃ s, toyCrypto.sign (List.replicate 32 3) m [] = some s := ⟨rfl, rfl, fun m => ⟨_, rfl⟩⟩

/-- C19 fails in the build with cJSON, for any cryptography and any signed event of time 2^53: the time can be changed
to 2^53+1 after signing and the event still verifies, because both are the same `double`. -/
theorem C19_tamper_cjson_refuted {C : Crypto} (hC : CryptoOK C) {td : Int → Int} {fr : Int → Bytes} (hd : td (2 ^ 53 + 1) = td (2 ^ 53))
    {rand : Option Bytes} {sk : Bytes} {e0 e : Event} (h0 : e0.createdAt = 2 ^ 53) (h : sign C (.cjson td fr) rand sk e0 = .ok e) :
    e.createdAt = 2 ^ 53 ∧ verify C (.cjson td fr) e = .ok () ∧ verify C (.cjson td fr) { e with createdAt := 2 ^ 53 + 1 } = .ok () := by
  obtain ⟨h1, -, h2⟩ := C19_signed_verifies hC h
  have ht : e.createdAt = 2 ^ 53 := h2.2.1.trans h0
  have hser : serialize (.cjson td fr) { e with createdAt := 2 ^ 53 + 1 } = serialize (.cjson td fr) e := by
    have h1 : numTok td fr (2 ^ 53 + 1) = numTok td fr (2 ^ 53) := by
      unfold numTok
      rw [if_neg (by decide), if_neg (by decide), hd]
    simp only [serialize, idTree, h1, Event.text, ht]
  refine ⟨ht, h1, ?_⟩
  rw [← h1]
  unfold verify computeId
  rw [hser]
  cases serialize (.cjson td fr) e with
  | ok t => rfl
  | err _ => rfl
  | ub => rfl

example : (sign toyCrypto (.cjson (fun n => if n = 2 ^ 53 + 1 then 2 ^ 53 else n) fun _ => c!"9.0e15") (some []) (List.replicate 32 3)
    { note with createdAt := 2 ^ 53 }).isOk = true := by decide +kernel

/-! ## C20 -/

/-- C20 (part): an event within the configured limits is read back exactly from its JSON text (a NULL
content becomes the empty text).  Missing: timestamps of 16 or more digits, for which the property fails. -/
theorem C20_roundtrip_partial (P : Plat) (cfg : Option Config.Config) (td : Int → Int) (fr : Int → Bytes)
    {e : Event} (h : WF e) (ht : e.createdAt.natAbs < 10 ^ 15)
    (hc : ∀ c ∈ cfg, e.tags.length ≤ c.maxTags ∧ e.text.length ≤ c.maxContent) :
    ∃ s, toJson (.cjson td fr) e = .ok s ∧
      fromJson P (.cjson td fr) cfg s = .ok { e with content := some e.text } := by
  refine ⟨_, rfl, ?_⟩
  obtain ⟨g1, g2⟩ := good_toTree (td := td) (fr := fr) h ht
  simp only [fromJson]
  have h1 := parse_print true 0 _ g1 g2 [] (by simp [Stop])
  rw [List.append_nil] at h1
  rw [h1]
  exact fromTree_back P cfg td fr h ht hc

example : ∃ (e : Event) (cfg : Option Config.Config), WF e ∧ e.createdAt.natAbs < 10 ^ 15 ∧ cfg.isSome ∧
    e.tags ≠ [] ∧ ∀ c ∈ cfg, e.tags.length ≤ c.maxTags ∧ e.text.length ≤ c.maxContent :=
  ⟨note, some Config.defaults, note_wf, by decide, rfl, by decide, by
    intro c hc
    simp only [Option.mem_def, Option.some.injEq] at hc
    subst hc
    decide⟩

/-- C20 fails for timestamps above 2^53: two different events have the same JSON text, so no parser can
return both. -/
theorem C20_large_time_refuted (td : Int → Int) (fr : Int → Bytes) (hd : td (2 ^ 53 + 1) = td (2 ^ 53)) :
    ∃ e1 e2 : Event, WF e1 ∧ WF e2 ∧ e1.createdAt ≠ e2.createdAt ∧
      toJson (.cjson td fr) e1 = toJson (.cjson td fr) e2 := by
  refine ⟨{ note with createdAt := 2 ^ 53 + 1 }, { note with createdAt := 2 ^ 53 }, ?_, ?_, ?_, ?_⟩
  · exact ⟨by decide, by decide, by decide, by decide, by decide, by decide, by decide⟩
  · exact ⟨by decide, by decide, by decide, by decide, by decide, by decide, by decide⟩
  · decide
  · have h1 : numTok td fr (2 ^ 53 + 1) = numTok td fr (2 ^ 53) := by
      unfold numTok
      rw [if_neg (by decide), if_neg (by decide), hd]
    simp only [toJson, toTree, h1, Event.text]

/-! ## C78 -/

/-- C78 (part): in either build the id is the hash of exactly the NIP-01 text of the event, provided no
string contains a control character other than \b \t \n \f \r. -/
theorem C78_nip01_partial (C : Crypto) {b : Build} {e : Event} (h : WF e) (hr : InRange b e)
    (h1 : ∀ c ∈ e.text, ¬ RareControl c) (h2 : ∀ t ∈ e.tags, ∀ v ∈ t, ∀ c ∈ v, ¬ RareControl c) :
    computeId C b e = .ok { e with
      id := C.sha256 (nip01 (Hex.Spec.hexText e.pubkey) (Num.decInt e.createdAt) (Num.decNat e.kind) e.tags e.text) } := by
  unfold computeId
  rw [serialize_inRange h hr, idText_nip01 h1 h2]
  rfl

example : (∀ c ∈ note.text, ¬ RareControl c) ∧ (∀ t ∈ note.tags, ∀ v ∈ t, ∀ c ∈ v, ¬ RareControl c) := by
  unfold RareControl; decide

/-- C78, both builds compute the same id on the common range. -/
theorem C78_builds_agree (C : Crypto) (td : Int → Int) (fr : Int → Bytes) {e : Event} (h : WF e)
    (h1 : InRange .plain e) (h2 : InRange (.cjson td fr) e) :
    computeId C .plain e = computeId C (.cjson td fr) e := by
  unfold computeId
  rw [serialize_inRange h h1, serialize_inRange h h2]

example : InRange .plain note ∧ InRange (.cjson id fun _ => []) note := by
  constructor
  · show thinTags note ≤ 400; decide
  · show (1700000000 : Int).natAbs < 10 ^ 15; decide

/-- C78 fails for other control characters: the code escapes U+0001 as `\u0001`, NIP-01 hashes it
verbatim. -/
theorem C78_control_refuted (b : Build) : ∃ e, WF e ∧ InRange b e ∧
    serialize b e ≠ .ok (nip01 (Hex.Spec.hexText e.pubkey) (Num.decInt e.createdAt) (Num.decNat e.kind) e.tags e.text) := by
  have w : WF { note with content := some [1] } :=
    ⟨by decide, by decide, by decide, by decide, by decide, by decide, by decide⟩
  have r : InRange b { note with content := some [1] } := by
    cases b
    · show thinTags note ≤ 400; decide
    · show (1700000000 : Int).natAbs < 10 ^ 15; decide
  refine ⟨_, w, r, ?_⟩
  rw [serialize_inRange w r]
  decide +kernel

/-! ## C79 -/

/-- C79 fails: a well-formed JSON object with a malformed id makes parsing fail and leaves the caller's
event pointer pointing at freed memory. -/
theorem C79_dangling_refuted (P : Plat) (td : Int → Int) (fr : Int → Bytes) (cfg : Option Config.Config) :
    ∃ s, fromJson P (.cjson td fr) cfg s = .err .invalidEvent ∧
      fromJsonPtr P (.cjson td fr) cfg s = .dangling := by
  refine ⟨c!"{\"id\":\"0\"}", ?_, ?_⟩
  · have : parse (c!"{\"id\":\"0\"}") = some (.obj [(c!"id", .str (c!"0"))]) := by decide +kernel
    simp only [fromJson, this]
    rfl
  · have : parse (c!"{\"id\":\"0\"}") = some (.obj [(c!"id", .str (c!"0"))]) := by decide +kernel
    simp only [fromJsonPtr, this]
    rfl

/-- C79 (part): the pointer refers to an event exactly after success; it is left alone exactly if the text is not JSON or the build has no
JSON reader. Missing: all other errors, after which it refers to freed memory. -/
theorem C79_pointer_partial (P : Plat) (b : Build) (cfg : Option Config.Config) (s : Bytes) :
    (fromJsonPtr P b cfg s = .valid ↔ ∃ e, fromJson P b cfg s = .ok e) ∧
    (fromJsonPtr P b cfg s = .untouched ↔ b = .plain ∨ parse s = none) := by
  cases b with
  | plain => simp [fromJson, fromJsonPtr]
  | cjson td fr =>
    simp only [fromJson, fromJsonPtr]
    cases parse s with
    | none => simp
    | some root =>
      simp only
      cases fromTree P cfg root <;> simp

example : ∃ e, fromJson ⟨fun _ => 0, false⟩ (.cjson id fun _ => []) none (c!"{\"kind\":1}") = .ok e :=
  ⟨{ zero with kind := 1 }, by decide +kernel⟩

/-! ## C80 -/

/-- C80 (part): computing the id never leaves its buffer, in either build, for any number of tags and any sizes of tag values and
content, if at most 400 tags consist of control characters (or of nothing) only. -/
theorem C80_in_buffer_partial (C : Crypto) (b : Build) {e : Event} (h : WF e) (hn : thinTags e ≤ 400) :
    computeId C b e ≠ .ub := by
  unfold computeId
  cases b with
  | plain =>
    rw [serialize_inRange h (show InRange .plain e from hn)]
    simp
  | cjson td fr => simp [serialize]

example : WF note ∧ thinTags note ≤ 400 := ⟨note_wf, by decide⟩

/-- A list of any length of people followed. -/
example (n : Nat) (pk : Bytes) (hp : CStr pk) : WF { note with tags := List.replicate n [c!"p", pk] } ∧
    thinTags { note with tags := List.replicate n [c!"p", pk] } = 0 := by
  refine ⟨⟨note_wf.id, note_wf.pubkey, note_wf.sig, note_wf.time, note_wf.kind, ?_, note_wf.content⟩, ?_⟩
  · intro t ht
    rw [(List.mem_replicate.1 ht).2]
    refine ⟨by simp, fun v hv => ?_⟩
    rcases List.mem_cons.1 hv with rfl | hv
    · decide
    · rw [List.mem_singleton.1 hv]; exact hp
  · unfold thinTags
    rw [List.length_eq_zero_iff, List.filter_eq_nil_iff]
    intro t ht
    rw [(List.mem_replicate.1 ht).2]
    simp [thin]

/-- C80, exactly: the build without cJSON leaves the buffer if and only if the text up to the last tag takes at least as much as was set
aside for everything: 512 bytes, the escaped content, and for every value four bytes and six times its length. -/
theorem C80_exact_partial (C : Crypto) (e : Event) : computeId C .plain e = .ub ↔
    512 + (escape e.text).length + (e.tags.map fun t => (t.map fun v => v.length * 6 + 4).sum).sum ≤
      (c!"[0,\"" ++ Hex.hexEncode e.pubkey ++ c!"\"," ++ Num.decInt e.createdAt ++ c!"," ++ Num.decNat e.kind ++ c!",[" ++
        tagsText true e.tags).length := by
  have h := serializePlain_ub e
  refine Iff.trans ?_ h
  unfold computeId
  rw [show serialize .plain e = serializePlain e from rfl]
  cases serializePlain e with
  | ub => simp
  | ok t => simp
  | err x => simp

/-- C80 fails for the plain build: 600 tags `[""]` write behind the end of the heap buffer. -/
theorem C80_overflow_refuted (C : Crypto) : ∃ e, WF e ∧ e.tags.length = 600 ∧ computeId C .plain e = .ub := by
  refine ⟨manyTags 600 [], many_wf _ (by decide), List.length_replicate, ?_⟩
  have hub : serializePlain (manyTags 600 []) = .ub := by
    unfold serializePlain
    have hs : jsonSize (manyTags 600 []) = 512 + 0 + 4 * 600 := many_size 600 []
    simp only
    have s0 : (Wr.mk (512 + 0 + 4 * 600) [] 0).Sync := rfl
    rw [hs]
    rw [show (c!"[0,\"" ++ Hex.hexEncode (manyTags 600 []).pubkey ++ c!"\"," ++
      Num.decInt (manyTags 600 []).createdAt ++ c!"," ++ Num.decNat (manyTags 600 []).kind ++ c!",[") = preText
      from rfl, printf_fit s0 (by rw [pre_length]; decide), Res.bind_ok]
    have s1 := ext_sync s0 preText
    show (putTags _ true (List.replicate 600 [[]]) >>= _) = _
    rw [show List.replicate 600 ([[]] : List Bytes) = [[]] :: List.replicate 599 [[]] from rfl,
      show ([[]] :: List.replicate 599 ([[]] : List Bytes)) = [[[]]] ++ List.replicate 599 [[]] from rfl,
      putTags_append [[[]]] (List.replicate 599 [[]]) (List.cons_ne_nil _ _), putTags_fit [[[]]] true _ s1 (by rw [ext_pos, pre_length]; decide), Res.bind_ok]
    rcases putTags_empties 599 (((Wr.mk (512 + 0 + 4 * 600) [] 0).ext preText).ext (tagsText true [[[]]]))
      (by rw [ext_pos, ext_pos, pre_length]; decide) with h | ⟨w', h, h1, h2, h3⟩
    · rw [h]; rfl
    · exfalso
      rw [h1, ext_pos, ext_pos, pre_length] at h3
      revert h3
      decide
  unfold computeId
  rw [show serialize .plain _ = serializePlain _ from rfl, hub]
  rfl

end Nostr.Event.Props
