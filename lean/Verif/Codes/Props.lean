import Verif.Codes.Model
import Verif.Codes.Spec
import Verif.Bech32.Props
import Verif.Hex.Props
import Verif.Event.Props
import Verif.Hd.Props
import Verif.Nip13.Props
import Verif.Nip10.Props
import Verif.Nip49.Props
import Verif.Nip26.Props
import Verif.Msg.Props
import Verif.RelayProto.Props

/-! # Property theorems: C207 (the error code is the documented one) -/

namespace Nostr.Codes.Props
open Nostr Nostr.Event Nostr.Json Nostr.Codes.Spec

/-! ## Keys -/

theorem keyLoop_code (lax : Bool) : ∀ (k : Nat) (s : Bytes) (x : Err), Hex.keyLoop lax k s = .err x → x = .invalidKey := by
  intro k
  induction k with
  | zero => intro s x h; simp [Hex.keyLoop] at h
  | succ k ih =>
    intro s x h
    unfold Hex.keyLoop at h
    split at h
    · simpa using h.symm
    · cases hr : Hex.keyLoop lax k (s.drop 2) with
      | ok b => rw [hr] at h; simp at h
      | ub => rw [hr] at h; simp at h
      | err y =>
        rw [hr] at h
        simp only [Res.bind_err, Res.err.injEq] at h
        rw [← h]
        exact ih _ _ hr

/-- C207 fails for reading a key from hex: no text at all is answered with the documented code; a text that is refused is
answered with "invalid key". -/
theorem C207_hex_refuted (lax : Bool) : (∀ s : Bytes, Hex.keyFromHex lax s ≠ .err (documented .keyFromHex)) ∧
    (∀ (s : Bytes) (x : Err), Hex.keyFromHex lax s = .err x → x = .invalidKey) ∧
    Hex.keyFromHex lax (c!"zz") = .err .invalidKey ∧
    Hex.keyFromHex lax (List.replicate 64 0x7a) = .err .invalidKey := by
  have key : ∀ (s : Bytes) (x : Err), Hex.keyFromHex lax s = .err x → x = .invalidKey := by
    intro s x h
    unfold Hex.keyFromHex at h
    split at h
    · simpa using h.symm
    · exact keyLoop_code _ _ _ _ h
  refine ⟨fun s h => ?_, key, ?_, ?_⟩
  · have := key s _ h
    simp [documented] at this
  · cases lax <;> decide +kernel
  · cases lax <;> decide +kernel

/-- C207 (part): writing a key in hex fails exactly when the buffer is shorter than 65 bytes, and with the documented code. -/
theorem C207_hex_out_partial (key : Bytes) (size : Nat) :
    Answers .keyToHex (Hex.keyToHex key size) ∧ (Hex.keyToHex key size = .err (documented .keyToHex) ↔ size < 65) := by
  unfold Hex.keyToHex Answers documented
  by_cases h : size < 65
  · simp [h]
  · simp [h]

example : Hex.keyToHex (List.replicate 32 1) 64 = .err .invalidParam ∧ (Hex.keyToHex (List.replicate 32 1) 65).isOk = true := by
  decide +kernel

theorem readSyms_code (cap : Nat) : ∀ (s : Bytes) (i : Nat) (x : Err), Bech32.readSyms cap i s = .err x → x = .encoding := by
  intro s
  induction s with
  | nil => intro i x h; simp [Bech32.readSyms] at h
  | cons c cs ih =>
    intro i x h
    unfold Bech32.readSyms at h
    split at h
    · simpa using h.symm
    · split at h
      · simp at h
      · cases hr : Bech32.readSyms cap (i + 1) cs with
        | ok b => rw [hr] at h; simp at h
        | ub => rw [hr] at h; simp at h
        | err y =>
          rw [hr] at h
          simp only [Res.bind_err, Res.err.injEq] at h
          rw [← h]
          exact ih _ _ hr

/-- C207 (part): a text that is refused as the bech32 text of a key is answered with the documented code. (Texts with more
than 84 symbols after the separator are not answered at all: C05.) -/
theorem C207_bech32_partial (s : Bytes) : Bech32.keyFromBech32 s = .ub ∨ Answers .keyFromBech32 (Bech32.keyFromBech32 s) := by
  cases h : Bech32.keyFromBech32 s with
  | ok k => exact .inr (.inl ⟨k, rfl⟩)
  | ub => exact .inl rfl
  | err x =>
    refine .inr (.inr ?_)
    suffices x = .encoding by rw [this]; rfl
    unfold Bech32.keyFromBech32 at h
    simp only [] at h
    split at h
    · simpa using h.symm
    · split at h
      · simpa using h.symm
      · rename_i sep hs
        split at h
        · simpa using h.symm
        · split at h
          · simpa using h.symm
          · cases hr : Bech32.readSyms 84 0 (s.drop (sep + 1)) with
            | ub => rw [hr] at h; simp at h
            | err y =>
              rw [hr] at h
              simp only [Res.bind_err, Res.err.injEq] at h
              rw [← h]
              exact readSyms_code _ _ _ _ hr
            | ok d =>
              rw [hr] at h
              simp only [Res.bind_ok] at h
              split at h
              · split at h
                · simpa using h.symm
                · simp at h
              · simpa using h.symm

example : Bech32.keyFromBech32 (c!"npub1qqqqqqqqqqqqqqqq") = .err .encoding := by decide +kernel

/-! ## Events -/

/-- Computing an id gives no error code in the model (memory is in `Verif/Own`). -/
theorem computeId_code (C : Crypto) (b : Build) (e : Event) (x : Err) : computeId C b e ≠ .err x := by
  intro h
  unfold computeId at h
  cases hs : serialize b e with
  | ok t => rw [hs] at h; simp at h
  | ub => rw [hs] at h; simp at h
  | err y =>
    exact Nip13.serialize_noerr _ _ _ hs

/-- C207 (part): which code signing fails with, exactly. The documented one is given when the signature cannot be made. -/
theorem C207_sign_partial (C : Crypto) (b : Build) (rand : Option Bytes) (sk : Bytes) (e : Event) (x : Err)
    (h : Event.sign C b rand sk e = .err x) :
    (C.pubOf sk = none ∧ x = .invalidKey) ∨
    (∃ pk, C.pubOf sk = some pk ∧ rand = none ∧ x = .memory) ∨
    (∃ pk r, C.pubOf sk = some pk ∧ rand = some r ∧ x = documented .eventSign) := by
  unfold Event.sign at h
  cases hp : C.pubOf sk with
  | none => rw [hp] at h; simp only [Res.err.injEq] at h; exact .inl ⟨rfl, h.symm⟩
  | some pk =>
    rw [hp] at h
    simp only [] at h
    cases hc : computeId C b { e with pubkey := pk } with
    | ub => rw [hc] at h; simp at h
    | err y => exact absurd hc (computeId_code _ _ _ _)
    | ok e1 =>
      rw [hc] at h
      simp only [Res.bind_ok] at h
      cases rand with
      | none => simp only [Res.err.injEq] at h; exact .inr (.inl ⟨pk, rfl, rfl, h.symm⟩)
      | some r =>
        refine .inr (.inr ⟨pk, r, rfl, rfl, ?_⟩)
        simp only [] at h
        split at h
        · simpa [documented] using h.symm
        · simp at h

/-- C207 fails for signing: with a secret key that is none, and with a generator that fails, other codes than the documented
one are given. -/
theorem C207_sign_refuted (C : Crypto) (td : Int → Int) (fr : Int → Bytes) (sk : Bytes) (e : Event) :
    (C.pubOf sk = none → ∀ b rand, Event.sign C b rand sk e = .err .invalidKey ∧
      ¬ Answers .eventSign (Event.sign C b rand sk e)) ∧
    (C.pubOf sk ≠ none → Event.sign C (.cjson td fr) none sk e = .err .memory ∧
      ¬ Answers .eventSign (Event.sign C (.cjson td fr) none sk e)) := by
  refine ⟨fun h b rand => ?_, fun h => ?_⟩
  · have : Event.sign C b rand sk e = .err .invalidKey := by unfold Event.sign; rw [h]
    exact ⟨this, by rw [this]; simp [Answers, documented]⟩
  · obtain ⟨pk, hp⟩ := Option.ne_none_iff_exists'.1 h
    have : Event.sign C (.cjson td fr) none sk e = .err .memory := by
      unfold Event.sign; rw [hp]; simp [computeId, serialize]
    exact ⟨this, by rw [this]; simp [Answers, documented]⟩

/-- Cryptography in which the zero key is no secret key and the zero point no public key. -/
def strict : Crypto := { Event.Props.toyCrypto with
  pubOf := fun sk => if sk = List.replicate 32 0 then none else some sk
  validPub := fun pk => pk != List.replicate 32 0 }

example : strict.pubOf (List.replicate 32 0) = none ∧ strict.pubOf (List.replicate 32 1) ≠ none ∧
    Event.sign strict .plain (some []) (List.replicate 32 0) Event.zero = .err .invalidKey := by decide +kernel

/-- An event whose id is the hash of its text. -/
def IdRight (C : Crypto) (b : Build) (e : Event) : Prop := ∃ t, serialize b e = .ok t ∧ C.sha256 t = e.id

/-- C207 (part): an event whose id is right and whose key is one is answered with OK or with the documented code. -/
theorem C207_verify_partial (C : Crypto) (b : Build) (e : Event) (hi : IdRight C b e) (hk : C.validPub e.pubkey = true) :
    Answers .eventVerify (Event.verify C b e) := by
  obtain ⟨t, h1, h2⟩ := hi
  unfold Event.verify computeId
  rw [h1]
  simp only [Res.bind_ok, h2]
  rw [(Hex.Props.C10_exact e.id e.id rfl).2 rfl]
  simp only [ne_eq, not_true_eq_false, if_false, hk, Bool.not_true, Bool.false_eq_true]
  split
  · exact .inr rfl
  · exact .inl ⟨(), rfl⟩

example : IdRight Event.Props.toyCrypto .plain
    { Event.zero with id := c!"[0,\"0000000000000000000000000000" } := ⟨_, rfl, by decide +kernel⟩

/-- C207 fails for checking an event: if its id is not the hash of its text the answer is "invalid event"; if its id is right
but its key is none, it is "invalid key". -/
theorem C207_verify_refuted (C : Crypto) (hh : ∀ t, (C.sha256 t).length = 32) (b : Build) (e : Event) (he : e.id.length = 32)
    (hs : Event.serialize b e ≠ .ub) :
    (¬ IdRight C b e → Event.verify C b e = .err .invalidEvent ∧ ¬ Answers .eventVerify (Event.verify C b e)) ∧
    (IdRight C b e → C.validPub e.pubkey = false →
      Event.verify C b e = .err .invalidKey ∧ ¬ Answers .eventVerify (Event.verify C b e)) := by
  obtain ⟨t, ht⟩ : ∃ t, serialize b e = .ok t := by
    cases h : serialize b e with
    | ok t => exact ⟨t, rfl⟩
    | ub => exact absurd h hs
    | err y => exact absurd h (Nip13.serialize_noerr _ _ _)
  refine ⟨fun hn => ?_, fun hi hk => ?_⟩
  · have hne : Hex.ctMemcmp e.id (C.sha256 t) ≠ 0 := by
      intro h0
      exact hn ⟨t, ht, ((Hex.Props.C10_exact e.id (C.sha256 t) (by rw [hh, he])).1 h0).symm⟩
    have : Event.verify C b e = .err .invalidEvent := by
      unfold Event.verify computeId
      rw [ht]
      simp only [Res.bind_ok]
      rw [if_pos hne]
    exact ⟨this, by rw [this]; simp [Answers, documented]⟩
  · obtain ⟨t', h1, h2⟩ := hi
    have : Event.verify C b e = .err .invalidKey := by
      unfold Event.verify computeId
      rw [h1]
      simp only [Res.bind_ok, h2]
      rw [(Hex.Props.C10_exact e.id e.id rfl).2 rfl]
      simp [hk]
    exact ⟨this, by rw [this]; simp [Answers, documented]⟩

example : (∀ t, (strict.sha256 t).length = 32) ∧ Event.verify strict .plain Event.zero = .err .invalidEvent ∧
    Event.verify strict .plain { Event.zero with id := c!"[0,\"0000000000000000000000000000" } = .err .invalidKey :=
  ⟨fun t => by simp [strict, Event.Props.toyCrypto], by decide +kernel, by decide +kernel⟩

theorem hexField_code (P : Plat) (root : Json) (key : Bytes) (n : Nat) (old : Bytes) (x : Err)
    (h : Event.hexField P root key n old = .err x) : x = .invalidEvent := by
  unfold Event.hexField at h
  split at h
  · simp at h
  · split at h
    · simpa using h.symm
    · simp at h

theorem addTags_code (cfg : Option Config.Config) : ∀ (js : List Json) (e : Event) (x : Err),
    Event.addTags cfg e js = .err x → x = .memory := by
  intro js
  induction js with
  | nil => intro e x h; simp [Event.addTags] at h
  | cons j js ih =>
    intro e x h
    unfold Event.addTags at h
    split at h
    · split at h
      · exact ih _ _ h
      · simpa using h.symm
      · simp at h
    · exact ih _ _ h

/-- The codes of the part after parsing. -/
theorem fromTree_code (P : Plat) (cfg : Option Config.Config) (root : Json) (x : Err) (h : Event.fromTree P cfg root = .err x) :
    x = .invalidEvent ∨ x = .invalidParam ∨ x = .memory := by
  unfold Event.fromTree at h
  cases h1 : Event.hexField P root (c!"id") 32 zero.id with
  | ub => rw [h1] at h; simp at h
  | err y => rw [h1] at h; simp only [Res.bind_err, Res.err.injEq] at h; exact .inl (h ▸ hexField_code _ _ _ _ _ _ h1)
  | ok id =>
  rw [h1, Res.bind_ok] at h
  cases h2 : Event.hexField P root (c!"pubkey") 32 zero.pubkey with
  | ub => rw [h2] at h; simp at h
  | err y => rw [h2] at h; simp only [Res.bind_err, Res.err.injEq] at h; exact .inl (h ▸ hexField_code _ _ _ _ _ _ h2)
  | ok pk =>
  rw [h2, Res.bind_ok] at h
  cases h3 : Event.contentField cfg root with
  | ub => rw [h3] at h; simp at h
  | err y =>
    rw [h3] at h
    simp only [Res.bind_err, Res.err.injEq] at h
    refine .inr (.inl (h ▸ ?_))
    unfold Event.contentField at h3
    split at h3
    · simp at h3
    · split at h3
      · simpa using h3.symm
      · simp at h3
  | ok content =>
  rw [h3, Res.bind_ok] at h
  cases h4 : Event.tagsField cfg root ⟨id, pk, (Event.numFields P root).1, (Event.numFields P root).2, [], content, zero.sig⟩ with
  | ub => rw [h4] at h; simp at h
  | err y =>
    rw [h4] at h
    simp only [Res.bind_err, Res.err.injEq] at h
    subst h
    unfold Event.tagsField at h4
    split at h4
    · simp at h4
    · split at h4
      · simp only [Res.err.injEq] at h4; exact .inr (.inl h4.symm)
      · exact .inr (.inr (addTags_code _ _ _ _ h4))
  | ok e =>
  rw [h4, Res.bind_ok] at h
  cases h5 : Event.hexField P root (c!"sig") 64 zero.sig with
  | ub => rw [h5] at h; simp at h
  | err y => rw [h5] at h; simp only [Res.bind_err, Res.err.injEq] at h; exact .inl (h ▸ hexField_code _ _ _ _ _ _ h5)
  | ok sig => rw [h5] at h; simp at h

/-- C207 (part): reading an event from JSON gives the documented code exactly for the texts that the JSON parser refuses. -/
theorem C207_json_partial (P : Plat) (td : Int → Int) (fr : Int → Bytes) (cfg : Option Config.Config) (s : Bytes) :
    Event.fromJson P (.cjson td fr) cfg s = .err (documented .eventFromJson) ↔ Json.parse s = none := by
  unfold Event.fromJson documented
  cases hp : Json.parse s with
  | none => simp
  | some root =>
    simp only [reduceCtorEq, iff_false]
    exact fun h => by simpa using fromTree_code _ _ _ _ h

/-- C207 fails for reading an event: a text that is not JSON because something follows the object is accepted. -/
theorem C207_json_refuted (P : Plat) (td : Int → Int) (fr : Int → Bytes) (cfg : Option Config.Config) :
    Event.fromJson P (.cjson td fr) cfg (c!"{}]") = .ok Event.zero := by
  have h : Json.parse (c!"{}]") = some (.obj []) := by decide +kernel
  unfold Event.fromJson
  rw [h]
  rfl

example : Event.fromJson ⟨fun _ => 0, false⟩ (.cjson id (fun _ => [])) none (c!"{\"kind\":}") = .err .jsonParse ∧
    Event.fromJson ⟨fun _ => 0, false⟩ (.cjson id (fun _ => [])) none (c!"{\"id\":\"x\"}") = .err .invalidEvent := by decide +kernel

/-! ## Mnemonics and encrypted keys -/

/-- C207 (part): a mnemonic is answered with OK or with the documented code, every text. -/
theorem C207_mnemonic_partial (C : Hd.Crypto) (s : Bytes) : Answers .mnemonicValidate (Hd.validate C s) := by
  rcases Hd.Props.C64_validate_total C s with h | h
  · exact .inl ⟨(), h⟩
  · exact .inr h

example : Hd.validate Hd.Props.toyCrypto (c!"abandon abandon zoo") = .err (documented .mnemonicValidate) := by decide +kernel

/-- C207 (part): decrypting a key text made by the library with any password that is not empty is answered with OK or with the
documented code, provided scrypt does its work. -/
theorem C207_ncryptsec_partial (L : Nip49.Lib) (hL : Nip49.Spec.LibOK L) (salt nonce priv pw : Bytes) (logN : UInt8) (size : Nat)
    (s : Bytes) (hs : salt.length = 16) (hn : nonce.length = 24) (hp : priv.length = 32)
    (h : Nip49.encrypt L (some salt) (some nonce) priv pw logN size = .ok s) (other : Bytes) (ho : other ≠ [])
    (hk : L.scrypt other salt (2 ^ logN.toNat) 8 1 ≠ none) :
    Answers .ncryptsecDecrypt (Nip49.decrypt L s other) := by
  obtain ⟨hpw, -, -, key, n12, ct, tag, hk1, hc, ht⟩ := Nip49.Props.C110_text L hL salt nonce priv pw logN size s hs hn hp h
  obtain ⟨hf, hs'⟩ := (Nip49.Props.isText_iff _ s).1 ht
  obtain ⟨h1, h2⟩ := (Nip49.Props.accepted_iff s _).2 ⟨_, hf, rfl, hs'⟩
  have hparts := Nip49.Props.bytes_parts hf
  have e1 := congrArg Nip49.Spec.Fields.salt hparts
  have e2 := congrArg Nip49.Spec.Fields.logN hparts
  simp only [Nip49.Props.parts] at e1 e2
  unfold Nip49.decrypt
  rw [if_neg (fun h => ho (List.length_eq_zero_iff.1 h)), h1]
  simp only [Res.bind_ok, h2]
  obtain ⟨k0, hk0⟩ := Option.ne_none_iff_exists'.1 hk
  rw [e1, e2]
  unfold Nip49.deriveKey
  rw [hk0]
  simp only []
  split
  · exact .inr rfl
  · exact .inl ⟨_, rfl⟩

example : ∃ s, Nip49.encrypt Nip49.Props.toyLib (some (List.replicate 16 3)) (some (List.replicate 24 5)) (List.replicate 32 9)
      (c!"pass") 18 200 = .ok s ∧ Nip49.decrypt Nip49.Props.toyLib s (c!"word") = .err (documented .ncryptsecDecrypt) ∧
      Nip49.decrypt Nip49.Props.toyLib s [] = .err .invalidParam := by
  obtain ⟨s, h⟩ := Nip49.Props.C63_encrypts Nip49.Props.toyLib Nip49.Props.toyLib_ok (List.replicate 16 3) (List.replicate 24 5)
    (List.replicate 32 9) (c!"pass") 18 200 _ _ _ _ (by decide) (by decide) (by decide) (by decide) (by decide) (by decide)
    (by decide) rfl rfl
  refine ⟨s, h, ?_, rfl⟩
  have hd : (do let s ← Nip49.encrypt Nip49.Props.toyLib (some (List.replicate 16 3)) (some (List.replicate 24 5))
                  (List.replicate 32 9) (c!"pass") 18 200
                Nip49.decrypt Nip49.Props.toyLib s (c!"word")) = .err .invalidSignature := by decide +kernel
  rw [h] at hd
  exact hd

/-- C207 fails for decrypting a key: the empty password, which is the password of no text that the library makes, is answered
with "invalid parameter". -/
theorem C207_ncryptsec_refuted (L : Nip49.Lib) (hL : Nip49.Spec.LibOK L) (salt nonce priv pw : Bytes) (logN : UInt8) (size : Nat)
    (s : Bytes) (hs : salt.length = 16) (hn : nonce.length = 24) (hp : priv.length = 32)
    (h : Nip49.encrypt L (some salt) (some nonce) priv pw logN size = .ok s) :
    pw ≠ [] ∧ Nip49.decrypt L s [] = .err .invalidParam ∧ ¬ Answers .ncryptsecDecrypt (Nip49.decrypt L s []) := by
  have h1 : Nip49.decrypt L s [] = .err .invalidParam := rfl
  exact ⟨(Nip49.Props.C110_text L hL salt nonce priv pw logN size s hs hn hp h).1, h1, by rw [h1]; simp [Answers, documented]⟩

/-! ## Mining -/

/-- An event that can be mined: it has a nonce tag, or there is room for one more tag. -/
def Minable (cfg : Option Config.Config) (e : Event) : Prop :=
  (∃ t ∈ e.tags, t.head? = some (c!"nonce")) ∨ ∀ c, cfg = some c → e.tags.length < c.maxTags

theorem nonceTags_some {a b : List (List Bytes)} {n : Nat} {target : Int} (h : Nip13.Spec.NonceTags a b n target) :
    Nip13.findNonce b ≠ none := by
  intro hn
  have hb := Nip13.findNonce_none hn
  rcases h with ⟨-, h⟩ | ⟨pre, v, rest, post, -, -, h⟩
  · exact hb [c!"nonce", Num.decNat n, Num.decInt target] (by rw [h]; simp) rfl
  · exact hb (c!"nonce" :: Num.decNat n :: Num.decInt target :: rest.drop 1) (by rw [h]; simp) rfl

theorem addNonce_some {cfg : Option Config.Config} {e : Event} {nonce : Nat} {target : Int} (h : Nip13.findNonce e.tags ≠ none)
    (x : Err) : Nip13.addNonce cfg e nonce target ≠ .err x := by
  obtain ⟨i, hi⟩ := Option.ne_none_iff_exists'.1 h
  unfold Nip13.addNonce
  rw [hi]
  simp only []
  unfold Nip13.updateNonce
  split
  · simp
  · simp
  · split <;> simp

theorem mineLoop_code (E : Nip13.Env) {target : Int} (ht : target > 0) (maxIter : Nat) : ∀ (fuel iter : Nat) (e : Event) (x : Err),
    Nip13.findNonce e.tags ≠ none → Nip13.mineLoop E target maxIter fuel iter e = some (.err x) → x = .notFound := by
  intro fuel
  induction fuel with
  | zero => intro iter e x _ h; simp [Nip13.mineLoop] at h
  | succ fuel ih =>
    intro iter e x hn h
    unfold Nip13.mineLoop at h
    split at h
    · split at h
      · rename_i e1 h1
        split at h
        · rename_i e2 h2
          split at h
          · simp at h
          · refine ih _ _ _ ?_ h
            obtain ⟨t, -, hc⟩ := Nip13.computeId_ok h2
            have := nonceTags_some (Nip13.addNonce_ok ht h1).1
            have he : e2.tags = e1.tags := by
              unfold computeId at h2
              rw [Res.bind_eq_ok] at h2
              obtain ⟨t, -, h2⟩ := h2
              simp only [Res.ok.injEq] at h2
              rw [← h2]
            rw [he]
            exact this
        · rename_i y hy
          exact absurd hy (computeId_code _ _ _ _)
        · simp at h
      · rename_i y hy
        exact absurd hy (addNonce_some hn y)
      · simp at h
    · simpa using h.symm

/-- C207 (part): mining an event that can be mined, for a target of at least 1, is answered with OK or with the documented
code (if it ends, and does not run into C80 or C82). -/
theorem C207_mine_partial (E : Nip13.Env) {target : Int} (ht : 1 ≤ target) (maxIter fuel : Nat) (e : Event)
    (hm : Minable E.cfg e) (r : Res Event) (h : Nip13.mine E target maxIter fuel e = some r) (hu : r ≠ .ub) :
    Answers .mineEvent r := by
  cases r with
  | ok e' => exact .inl ⟨e', rfl⟩
  | ub => exact absurd rfl hu
  | err x =>
    refine .inr ?_
    suffices x = .notFound by rw [this]; rfl
    unfold Nip13.mine at h
    rw [if_neg (by omega)] at h
    split at h
    · rename_i e1 h1
      refine mineLoop_code E (by omega) maxIter fuel 0 e1 x ?_ h
      unfold Nip13.ensureNonce at h1
      split at h1
      · rename_i i hi
        simp only [Res.ok.injEq] at h1
        rw [← h1, hi]
        simp
      · exact nonceTags_some (Nip13.addNonce_ok (by omega) h1).1
    · rename_i y hy
      exfalso
      unfold Nip13.ensureNonce at hy
      split at hy
      · simp at hy
      · rename_i hn
        unfold Nip13.addNonce at hy
        rw [hn] at hy
        simp only [] at hy
        unfold addTag at hy
        rw [if_pos (show target > 0 by omega), if_neg (List.cons_ne_nil _ _)] at hy
        split at hy
        · rename_i hc
          rcases hm with ⟨t, hm, hh⟩ | hm
          · exact Nip13.findNonce_none hn t hm hh
          · cases hcfg : E.cfg with
            | none => rw [hcfg] at hc; simp at hc
            | some c =>
              rw [hcfg] at hc
              simp only [Option.any_some, decide_eq_true_eq] at hc
              have := hm c hcfg
              omega
        · simp at hy
    · simp at h

example : Minable Nip13.Props.toyEnv.cfg Nip13.Props.toyNote ∧
    Nip13.mine Nip13.Props.toyEnv 9 3 20 Nip13.Props.toyNote = some (.err (documented .mineEvent)) := by
  refine ⟨.inr ?_, by decide +kernel⟩
  intro c hc
  simp [Nip13.Props.toyEnv] at hc

/-! ## Threads -/

/-- C207 (part): with a buffer for an id, the lookups of root and parent are answered with OK or with the documented code,
which is given exactly when the event refers to no event at all. -/
theorem C207_thread_partial (e : Event) (n r : Nat) (hn : 65 ≤ n) :
    Answers .getRootId (Nip10.getRootId e n r) ∧ Answers .getReplyId (Nip10.getReplyId e n r) ∧
    (Nip10.getRootId e n r = .err (documented .getRootId) ↔ ¬ ∃ id rest, (c!"e" :: id :: rest) ∈ e.tags) ∧
    (Nip10.getReplyId e n r = .err (documented .getReplyId) ↔ ¬ ∃ id rest, (c!"e" :: id :: rest) ∈ e.tags) := by
  have key : ∀ m last, (∃ a, Nip10.findByMarker e m last n r = .ok a) ∨ Nip10.findByMarker e m last n r = .err .notFound := by
    intro m last
    unfold Nip10.findByMarker
    rw [if_neg (by omega)]
    split
    · exact .inr rfl
    · split
      · exact .inl ⟨_, rfl⟩
      · exact .inl ⟨_, rfl⟩
  have conv : (∀ t ∈ e.tags, ¬ Nip10.Spec.IsE t) ↔ ¬ ∃ id rest, (c!"e" :: id :: rest) ∈ e.tags := by
    constructor
    · rintro h ⟨id, rest, hm⟩
      exact h _ hm ⟨id, rest, rfl⟩
    · rintro h t ht ⟨id, rest, rfl⟩
      exact h ⟨id, rest, ht⟩
  obtain ⟨h1, h2⟩ := Nip10.Props.C52_none e n r hn
  exact ⟨key _ _, key _ _, h1.trans conv, h2.trans conv⟩

/-- C207 fails for these lookups: in an event whose only reference is marked as a mention there is neither a root nor a
parent, and both lookups are answered with OK. -/
theorem C207_thread_refuted : ∃ e : Event, (∀ t ∈ e.tags, Nip10.Spec.IsE t → Nip10.Spec.Marked (c!"mention") t) ∧
    Nip10.getRootId e 65 65 = .ok (List.replicate 64 0x61, []) ∧ Nip10.getReplyId e 65 65 = .ok (List.replicate 64 0x61, []) := by
  obtain ⟨e, h1, -, h2, h3⟩ := Nip10.Props.C52_mention_refuted
  exact ⟨e, h1, h2, h3⟩

/-! ## Delegations -/

/-- C207 (part): the conditions of a delegation are answered with OK when kind and time satisfy them and otherwise with the
documented code. -/
theorem C207_conditions_partial (d : Nip26.Delegation) (kind : Nat) (time : Int) :
    Answers .delegationCheck (Nip26.check d kind time) ∧
    (Nip26.check d kind time = .err (documented .delegationCheck) ↔
      ¬ ((d.parsed.kinds = [] ∨ kind ∈ d.parsed.kinds) ∧ (∀ t, d.parsed.after = some t → t < time) ∧
        ∀ t, d.parsed.before = some t → time < t)) := by
  have hk : Nip26.kindAllowed d.parsed kind = true ↔ d.parsed.kinds = [] ∨ kind ∈ d.parsed.kinds := by
    unfold Nip26.kindAllowed
    by_cases h : d.parsed.kinds = []
    · simp [h]
    · simp [h]
  unfold Nip26.check Answers documented
  rw [← hk]
  cases Nip26.kindAllowed d.parsed kind with
  | false => simp
  | true =>
    cases d.parsed.after with
    | none =>
      cases d.parsed.before with
      | none => simp
      | some b => by_cases h : b ≤ time <;> simp [h]
    | some a =>
      by_cases ha : time ≤ a
      · have : ¬ a < time := by omega
        simp [ha, this]
      · cases d.parsed.before with
        | none => simp [ha]
        | some b => by_cases h : b ≤ time <;> simp [ha, h]

example : Nip26.check ⟨[], [], [], ⟨[1, 7], some 100, some 200⟩⟩ 7 150 = .ok () ∧
    Nip26.check ⟨[], [], [], ⟨[1, 7], some 100, some 200⟩⟩ 7 200 = .err (documented .delegationCheck) := by decide +kernel

/-- C207 (part): the documented code for "no delegation tag" is given exactly when no tag named "delegation" has the three
values of a delegation. -/
theorem C207_tag_partial (e : Event) : Nip26.getDelegation e = .err (documented .getDelegation) ↔
    ¬ ∃ a b c rest, (c!"delegation" :: a :: b :: c :: rest) ∈ e.tags := by
  have hr : ∀ a b c, Nip26.readTag a b c ≠ .err .notFound := by
    intro a b c h
    unfold Nip26.readTag at h
    repeat' split at h
    all_goals simp at h
  have key : ∀ ts, Nip26.getLoop ts = .err .notFound ↔ ¬ ∃ a b c rest, (c!"delegation" :: a :: b :: c :: rest) ∈ ts := by
    intro ts
    induction ts with
    | nil => simp [Nip26.getLoop]
    | cons t ts ih =>
      unfold Nip26.getLoop
      split
      · simp_all
      · rename_i name a b c r0 rest heq
        simp only [List.cons.injEq] at heq
        obtain ⟨h1, h2⟩ := heq
        subst h1 h2
        split
        · rename_i hn
          subst hn
          refine iff_of_false (hr _ _ _) (fun h => h ⟨a, b, c, r0, by simp⟩)
        · rename_i hn
          rw [ih]
          refine not_congr ⟨?_, ?_⟩
          · rintro ⟨a, b, c, r, h⟩; exact ⟨a, b, c, r, List.mem_cons_of_mem _ h⟩
          · rintro ⟨a', b', c', r', h⟩
            rcases List.mem_cons.1 h with h | h
            · simp only [List.cons.injEq] at h; exact absurd h.1.symm hn
            · exact ⟨a', b', c', r', h⟩
      · rename_i t' rest hno heq
        simp only [List.cons.injEq] at heq
        obtain ⟨h1, h2⟩ := heq
        subst h1 h2
        rw [ih]
        refine not_congr ⟨?_, ?_⟩
        · rintro ⟨a, b, c, r, h⟩; exact ⟨a, b, c, r, List.mem_cons_of_mem _ h⟩
        · rintro ⟨a', b', c', r', h⟩
          rcases List.mem_cons.1 h with h | h
          · exact absurd h.symm (by intro h; exact hno _ _ _ _ _ h)
          · exact ⟨a', b', c', r', h⟩
  exact key e.tags

example : Nip26.getDelegation { Event.zero with tags := [[c!"p", c!"x"]] } = .err (documented .getDelegation) := by decide +kernel

/-- C207 (part): a delegation with conditions of at most 4096 characters by a key that is one is answered with OK or with the
documented code. -/
theorem C207_delegation_partial (C : Crypto) (d : Nip26.Delegation) (pk : Bytes) (hl : d.conditions.length ≤ 4096)
    (hk : C.validPub d.delegator = true) : Answers .delegationVerify (Nip26.verify C d pk) := by
  unfold Nip26.verify Nip26.digest
  rw [if_neg (by omega)]
  simp only [Res.bind_ok, hk, Bool.not_true, Bool.false_eq_true, if_false]
  split
  · exact .inr rfl
  · exact .inl ⟨(), rfl⟩

/-- C207 fails for checking a delegation: if the delegator's key is none the answer is "invalid key". -/
theorem C207_delegation_refuted (C : Crypto) (d : Nip26.Delegation) (pk : Bytes) (hl : d.conditions.length ≤ 4096)
    (hk : C.validPub d.delegator = false) :
    Nip26.verify C d pk = .err .invalidKey ∧ ¬ Answers .delegationVerify (Nip26.verify C d pk) := by
  have : Nip26.verify C d pk = .err .invalidKey := by
    unfold Nip26.verify Nip26.digest
    rw [if_neg (by omega)]
    simp [hk]
  exact ⟨this, by rw [this]; simp [Answers, documented]⟩

example : Nip26.verify strict ⟨List.replicate 32 0, c!"kind=1", [], ⟨[1], none, none⟩⟩ (List.replicate 32 1) = .err .invalidKey ∧
    Nip26.verify strict ⟨List.replicate 32 7, c!"kind=1", [], ⟨[1], none, none⟩⟩ (List.replicate 32 1) =
      .err (documented .delegationVerify) := by decide +kernel

/-! ## Writing into a buffer -/

/-- C207 (part): with a buffer of at least one byte, a message whose tree can be made is answered with OK when its text and a
final NUL fit and otherwise with the documented code. -/
theorem C207_message_partial (td : Int → Int) (fr : Int → Bytes) (r : Bytes → Json) (m : Msg.RelayMsg) (j : Json)
    (hm : Msg.msgTree td fr r m = .ok j) (size : Nat) (hs : 0 < size) :
    Answers .relayMsgSerialize (Msg.serialize td fr r m size).res ∧
    ((Msg.serialize td fr r m size).res = .err (documented .relayMsgSerialize) ↔ size < (print false 0 j).length + 1) := by
  unfold Msg.serialize
  rw [if_neg (by omega), hm]
  simp only []
  by_cases h : (print false 0 j).length ≥ size
  · rw [if_pos h]
    exact ⟨.inr rfl, ⟨fun _ => by omega, fun _ => rfl⟩⟩
  · rw [if_neg h]
    exact ⟨.inl ⟨(), rfl⟩, ⟨fun h => by simp at h, fun h => by omega⟩⟩

/-- C207 (part): the same for the canonical text of an event and for the event as JSON, in builds with cJSON. -/
theorem C207_event_text_partial (td : Int → Int) (fr : Int → Bytes) (e : Event) (size : Nat) (hs : 0 < size) :
    Answers .serializeCanonical (RelayProto.serializeCanonical (.cjson td fr) e size).1 ∧
    Answers .eventSerialize (RelayProto.serializeEvent (.cjson td fr) e size).1 ∧
    (∀ t, serialize (.cjson td fr) e = .ok t →
      ((RelayProto.serializeCanonical (.cjson td fr) e size).1 = .err (documented .serializeCanonical) ↔ size < t.length + 1)) ∧
    (∀ t, toJson (.cjson td fr) e = .ok t →
      ((RelayProto.serializeEvent (.cjson td fr) e size).1 = .err (documented .eventSerialize) ↔ size < t.length + 1)) := by
  unfold RelayProto.serializeCanonical RelayProto.serializeEvent
  simp only [show size ≠ 0 by omega, if_false, toJson, serialize]
  refine ⟨?_, ?_, ?_, ?_⟩
  · split
    · exact .inr rfl
    · exact .inl ⟨_, rfl⟩
  · split
    · exact .inr rfl
    · exact .inl ⟨_, rfl⟩
  · intro t ht
    simp only [Res.ok.injEq] at ht
    subst ht
    split
    · exact ⟨fun _ => by omega, fun _ => rfl⟩
    · exact ⟨fun h => by simp at h, fun h => by omega⟩
  · intro t ht
    simp only [Res.ok.injEq] at ht
    subst ht
    split
    · exact ⟨fun _ => by omega, fun _ => rfl⟩
    · exact ⟨fun h => by simp at h, fun h => by omega⟩

/-- C207 fails for a buffer of no bytes, which is too small for every text: all three calls answer "invalid JSON". -/
theorem C207_empty_refuted (td : Int → Int) (fr : Int → Bytes) (r : Bytes → Json) (m : Msg.RelayMsg) (e : Event) :
    (Msg.serialize td fr r m 0).res = .err (.relay .invalidJson) ∧
    (RelayProto.serializeCanonical (.cjson td fr) e 0).1 = .err (.relay .invalidJson) ∧
    (RelayProto.serializeEvent (.cjson td fr) e 0).1 = .err (.relay .invalidJson) := ⟨rfl, rfl, rfl⟩

example : (Msg.serialize id (fun _ => []) (fun _ => .null) (Msg.mkNotice (some (c!"hi"))) 15).res =
      .err (documented .relayMsgSerialize) ∧
    (Msg.serialize id (fun _ => []) (fun _ => .null) (Msg.mkNotice (some (c!"hi"))) 16).res = .ok () := by decide +kernel

/-! ## Connecting -/

/-- C207 (part): a failing attempt to connect, exactly: an attempt that does not lack memory, to a URL with one of the two
schemes, fails with the documented code; every other code has one of two reasons. -/
theorem C207_connect_partial (a : Attempt) (url : Bytes) (x : Err) (h : connect a url = .err x) :
    x = documented .relayConnect ∨
    (x = .invalidParam ∧ url.take 6 ≠ c!"wss://" ∧ url.take 5 ≠ c!"ws://") ∨
    (x = .memory ∧ (a.data = false ∨ a.mutex = false ∨ a.thread = false)) := by
  unfold connect at h
  split at h
  · simp only [Res.err.injEq] at h; exact .inl h.symm
  split at h
  · simp only [Res.err.injEq] at h; exact .inl h.symm
  have tail : ∀ (y : Err), (if !a.data then .err .memory
    else if !a.mutex then .err .memory
    else if !a.client then .err .connection
    else if a.threading && !a.thread then .err .memory
    else (.ok () : Res Unit)) = .err y → y = .connection ∨ (y = .memory ∧ (a.data = false ∨ a.mutex = false ∨ a.thread = false)) := by
    intro y hy
    cases hd : a.data with
    | false => simp [hd] at hy; exact .inr ⟨hy.symm, .inl rfl⟩
    | true =>
      cases hm : a.mutex with
      | false => simp [hd, hm] at hy; exact .inr ⟨hy.symm, .inr (.inl rfl)⟩
      | true =>
        cases hc : a.client with
        | false => simp [hd, hm, hc] at hy; exact .inl hy.symm
        | true =>
          cases ht : a.threading with
          | false => simp [hd, hm, hc, ht] at hy
          | true =>
            cases hh : a.thread with
            | false => simp [hd, hm, hc, ht, hh] at hy; exact .inr ⟨hy.symm, .inr (.inr rfl)⟩
            | true => simp [hd, hm, hc, ht, hh] at hy
  unfold Relay.resolve at h
  cases hcp : a.copied with
  | false => simp [hcp] at h
  | true =>
    simp only [hcp, Bool.not_true, Bool.false_eq_true, if_false] at h
    by_cases h6 : url.take 6 = c!"wss://"
    · rw [if_pos h6, Res.bind_ok] at h
      rcases tail x h with h | h
      · exact .inl h
      · exact .inr (.inr h)
    · rw [if_neg h6] at h
      by_cases h5 : url.take 5 = c!"ws://"
      · rw [if_pos h5, Res.bind_ok] at h
        rcases tail x h with h | h
        · exact .inl h
        · exact .inr (.inr h)
      · rw [if_neg h5] at h
        simp only [Res.bind_err, Res.err.injEq] at h
        exact .inr (.inl ⟨h.symm, h6, h5⟩)

/-- C207 fails for connecting: a URL with another scheme, and a service thread that cannot be started. -/
theorem C207_connect_refuted : connect ⟨false, true, true, true, true, true, true, true⟩ (c!"https://relay.example") = .err .invalidParam ∧
    connect ⟨false, true, true, true, true, true, true, false⟩ (c!"wss://relay.example") = .err .memory := by decide +kernel

example : connect ⟨false, true, true, true, true, false, true, true⟩ (c!"wss://relay.example") = .err (documented .relayConnect) ∧
    connect ⟨false, true, true, true, true, true, true, true⟩ (c!"wss://relay.example") = .ok () := by decide +kernel

end Nostr.Codes.Props
