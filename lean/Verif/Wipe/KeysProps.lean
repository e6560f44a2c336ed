import Verif.Wipe.Keys
import Verif.Wipe.Spec

/-! # Property theorems: what signing and key handling leave in memory (C159, C160) -/

namespace Nostr.Wipe.Keys.Props
open Nostr Nostr.Event Nostr.Wipe Nostr.Wipe.Keys Nostr.Wipe.Spec
open Nostr.Keys (Curve Draw Pair attempts)

/-! ## Sizes -/

/-- The sizes of the buffers, in bytes. -/
def NcFrame.Sized (f : NcFrame) : Prop := f.secret.length = 32 ∧ f.pub.length = 32 ∧ f.random.length = 32

def SecpFrame.Sized (f : SecpFrame) : Prop := f.pair.length = 96 ∧ f.random.length = 32

def KeyFrame.Sized (f : KeyFrame) : Prop := f.secret.length = 32 ∧ f.pub.length = 32 ∧ f.extra.length = 32

/-- Public keys have 32 bytes. -/
def Pub32 (pub : Bytes → Option Bytes) : Prop := ∀ sk pk, pub sk = some pk → pk.length = 32

/-- A random draw for a buffer of 32 bytes. -/
def Draw32 (rand : Option Bytes) : Prop := ∀ r ∈ rand, r.length = 32

theorem take_all {d b : Bytes} (h : d.length = b.length) (hb : b.length = 32) : (over 0 d b).take 32 = d := by
  rw [over_all h, ← hb, ← h, List.take_length]

/-! ## C159 -/

/-- C159, noscrypt: signing an event, in every case that is not undefined behaviour in the serialisation (C80). When the
call returns, the buffers of the secret key and of the randomness are wiped or were never written; the only new content is the
public key. The outcome is that of the value model. -/
theorem C159_sign_noscrypt {C : Crypto} {b : Build} {f : NcFrame} {rand : Option Bytes} {sk : Bytes} {e : Event.Event} (hf : NcFrame.Sized f)
    (hs : sk.length = 32) (hC : Pub32 C.pubOf) (hr : Draw32 rand) (hu : (signNc C b f rand sk e).view.1 ≠ .ub) :
    Clean (C.pubOf sk).toList f.dead (signNc C b f rand sk e).left ∧
      Event.sign C b rand sk e = (signNc C b f rand sk e).view.1 >>= fun _ => .ok (signNc C b f rand sk e).view.2 := by
  obtain ⟨h1, h2, h3⟩ := hf
  have w1 : wipe 32 (over 0 sk f.secret) = List.replicate f.secret.length 0 := wipe_over (by omega) (by omega)
  unfold signNc at hu ⊢
  unfold Event.sign
  cases hp : C.pubOf sk with
  | none => simp [NcFrame.dead, Clean, w1]
  | some pk =>
    have hpk := over_all (d := pk) (b := f.pub) (by rw [hC sk pk hp, h2])
    rw [hp] at hu
    simp only [hpk] at hu ⊢
    cases hi : computeId C b { e with pubkey := pk } with
    | ub => rw [hi] at hu; exact absurd rfl hu
    | err x => simp [NcFrame.dead, Clean, w1]
    | ok e1 =>
      cases rand with
      | none => simp [NcFrame.dead, Clean, w1]
      | some r =>
        have hr := hr r (by simp)
        have w3 : wipe 32 (over 0 r f.random) = List.replicate f.random.length 0 := wipe_over (by omega) (by omega)
        simp only [take_all (hs.trans h1.symm) h1, take_all (hr.trans h3.symm) h3]
        cases hg : C.sign sk e1.id r <;> simp [NcFrame.dead, Clean, w1, w3, hg]

/-- C159, secp256k1. -/
theorem C159_sign_secp {C : Crypto} {pair : Bytes → Option Bytes} {b : Build} {f : SecpFrame} {rand : Option Bytes} {sk : Bytes} {e : Event.Event}
    (hf : SecpFrame.Sized f) (hC : ∀ sk kp, pair sk = some kp → kp.length = 96) (hr : Draw32 rand)
    (hp : pair sk = none → C.pubOf sk = none) (hu : (signSecp C pair b f rand sk e).view.1 ≠ .ub) :
    Clean [] f.dead (signSecp C pair b f rand sk e).left ∧
      Event.sign C b rand sk e = (signSecp C pair b f rand sk e).view.1 >>= fun _ => .ok (signSecp C pair b f rand sk e).view.2 := by
  obtain ⟨h1, h2⟩ := hf
  unfold signSecp at hu ⊢
  unfold Event.sign
  cases hk : pair sk with
  | none => simp [SecpFrame.dead, Clean, hp hk]
  | some kp =>
    have hkp := hC sk kp hk
    have w1 : wipe 96 (over 0 kp f.pair) = List.replicate f.pair.length 0 := wipe_over (by omega) (by omega)
    have w2 : wipe 32 (over 0 (List.replicate 32 0) f.random) = List.replicate f.random.length 0 := wipe_over (by simp [h2]) (by omega)
    have hl : (over 0 (List.replicate 32 0) f.random).length = 32 := by rw [over_length (by simp [h2]), h2]
    rw [hk] at hu
    simp only at hu ⊢
    generalize over 0 (List.replicate 32 0) f.random = rz at hu w2 hl ⊢
    cases hq : C.pubOf sk with
    | none => simp [secpEnd, SecpFrame.dead, Clean, w1, w2]
    | some pk =>
      rw [hq] at hu
      simp only at hu ⊢
      cases hi : computeId C b { e with pubkey := pk } with
      | ub => rw [hi] at hu; exact absurd rfl hu
      | err x => simp [secpEnd, SecpFrame.dead, Clean, w1, w2]
      | ok e1 =>
        cases rand with
        | none => simp [secpEnd, SecpFrame.dead, Clean, w1, w2]
        | some r =>
          have hr := hr r (by simp)
          have w3 : wipe 32 (over 0 r rz) = List.replicate f.random.length 0 := by
            rw [wipe_over (by omega) (by omega), hl, h2]
          simp only [take_all (hr.trans hl.symm) hl]
          cases hg : C.sign sk e1.id r <;> simp [secpEnd, SecpFrame.dead, Clean, w1, w3, hg]

/-- The public values of a delegation: the public key of the delegator. -/
theorem C159_delegation_partial {C : Crypto} {f : NcFrame} {rand : Option Bytes} {sk h : Bytes} (hf : NcFrame.Sized f)
    (hs : sk.length = 32) (hC : Pub32 C.pubOf) (hr : Draw32 rand) (hu : (delegNc C f rand sk h).view ≠ .err .invalidSignature) :
    Clean (C.pubOf sk).toList f.dead (delegNc C f rand sk h).left := by
  obtain ⟨h1, h2, h3⟩ := hf
  have w1 : wipe 32 (over 0 sk f.secret) = List.replicate f.secret.length 0 := wipe_over (by omega) (by omega)
  unfold delegNc at hu ⊢
  cases hp : C.pubOf sk with
  | none => simp [NcFrame.dead, Clean, w1]
  | some pk =>
    have hpk := over_all (d := pk) (b := f.pub) (by rw [hC sk pk hp, h2])
    rw [hp] at hu
    simp only [hpk] at hu ⊢
    cases rand with
    | none => simp [NcFrame.dead, Clean, w1]
    | some r =>
      have hr := hr r (by simp)
      have w3 : wipe 32 (over 0 r f.random) = List.replicate f.random.length 0 := wipe_over (by omega) (by omega)
      simp only [take_all (hs.trans h1.symm) h1, take_all (hr.trans h3.symm) h3] at hu ⊢
      cases hg : C.sign sk h r with
      | none => rw [hg] at hu; exact absurd rfl hu
      | some s => simp [NcFrame.dead, Clean, w1, w3]

/-- C159, noscrypt, delegations, the secret key alone: its buffer is wiped on every path, also when signing fails. -/
theorem C159_delegation_key {C : Crypto} {f : NcFrame} {rand : Option Bytes} {sk h : Bytes} (hf : NcFrame.Sized f) (hs : sk.length = 32) :
    (delegNc C f rand sk h).left.head? = some (List.replicate 32 0) := by
  have w1 : wipe 32 (over 0 sk f.secret) = List.replicate 32 0 := by
    rw [wipe_over (by have := hf.1; omega) hf.1.symm, hf.1]
  unfold delegNc
  cases C.pubOf sk with
  | none => simp [NcFrame.dead, w1]
  | some pk =>
    cases rand with
    | none => simp [NcFrame.dead, w1]
    | some r =>
      simp only
      cases C.sign ((over 0 sk f.secret).take 32) h ((over 0 r f.random).take 32) <;> simp [NcFrame.dead, w1]

/-- C159 fails for delegations with noscrypt: when signing fails, the randomness is left (nip26.c:226-229 wipes the key
only). -/
theorem C159_randomness_refuted {C : Crypto} {f : NcFrame} {r sk h pk : Bytes} (hf : NcFrame.Sized f) (hs : sk.length = 32) (hp : C.pubOf sk = some pk)
    (hr : r.length = 32) (hg : C.sign sk h r = none) : r ∈ (delegNc C f (some r) sk h).left := by
  obtain ⟨h1, h2, h3⟩ := hf
  simp only [delegNc, hp, take_all (hs.trans h1.symm) h1, take_all (hr.trans h3.symm) h3, hg]
  simp only [NcFrame.dead, over_all (hr.trans h3.symm), List.mem_cons, true_or, or_true]

/-- C159, secp256k1, delegations. -/
theorem C159_delegation_secp {C : Crypto} {pair : Bytes → Option Bytes} {f : SecpFrame} {rand : Option Bytes} {sk h : Bytes} (hf : SecpFrame.Sized f)
    (hC : ∀ sk kp, pair sk = some kp → kp.length = 96) (hr : Draw32 rand) : Clean [] f.dead (delegSecp C pair f rand sk h).left := by
  obtain ⟨h1, h2⟩ := hf
  unfold delegSecp
  cases hk : pair sk with
  | none => simp [SecpFrame.dead, Clean]
  | some kp =>
    have hkp := hC sk kp hk
    have w1 : wipe 96 (over 0 kp f.pair) = List.replicate f.pair.length 0 := wipe_over (by omega) (by omega)
    simp only
    cases hq : C.pubOf sk with
    | none => simp [SecpFrame.dead, Clean, w1]
    | some pk =>
      cases rand with
      | none => simp [SecpFrame.dead, Clean, w1]
      | some r =>
        have hr := hr r (by simp)
        have w3 : wipe 32 (over 0 r f.random) = List.replicate f.random.length 0 := wipe_over (by omega) (by omega)
        simp only
        cases C.sign sk h ((over 0 r f.random).take 32) <;> simp [SecpFrame.dead, Clean, w1, w3]

/-- C159: the models of signing a delegation are the middle of the value model of creating one. -/
theorem C159_delegation_outcome {C : Crypto} {pair : Bytes → Option Bytes} {f : NcFrame} {g : SecpFrame} {rand : Option Bytes} {sk delegatee conditions : Bytes}
    (hf : NcFrame.Sized f) (hg : SecpFrame.Sized g) (hs : sk.length = 32) (hC : Pub32 C.pubOf) (hp : pair sk = none → C.pubOf sk = none) (hr : Draw32 rand) :
    (∀ h, (delegSecp C pair g rand sk h).view = (delegNc C f rand sk h).view) ∧
    Nip26.create C rand sk delegatee conditions = (Nip26.digest C delegatee conditions >>= fun h =>
      (delegNc C f rand sk h).view >>= fun ps => match Nip26.parseConditions conditions with
        | none => .err .invalidParam
        | some c => .ok ⟨ps.1, conditions, ps.2, c⟩) := by
  obtain ⟨h1, h2, h3⟩ := hf
  obtain ⟨g1, g2⟩ := hg
  have key : ∀ h, (delegNc C f rand sk h).view = (match C.pubOf sk with
      | none => .err .invalidKey
      | some pk => match rand with
        | none => .err .memory
        | some r => match C.sign sk h r with
          | none => .err .invalidSignature
          | some s => .ok (pk, s)) := by
    intro h
    unfold delegNc
    cases hq : C.pubOf sk with
    | none => rfl
    | some pk =>
      have hpk := over_all (d := pk) (b := f.pub) (by rw [hC sk pk hq, h2])
      cases rand with
      | none => rfl
      | some r =>
        have hr := hr r (by simp)
        simp only [take_all (hs.trans h1.symm) h1, take_all (hr.trans h3.symm) h3, hpk]
        cases C.sign sk h r <;> rfl
  refine ⟨fun h => ?_, ?_⟩
  · rw [key]
    unfold delegSecp
    cases hk : pair sk with
    | none => rw [hp hk]
    | some kp =>
      cases hq : C.pubOf sk with
      | none => rfl
      | some pk =>
        cases rand with
        | none => rfl
        | some r =>
          have hr := hr r (by simp)
          simp only [take_all (hr.trans g2.symm) g2]
          cases C.sign sk h r <;> rfl
  · unfold Nip26.create
    congr 1
    funext h
    rw [key]
    cases C.pubOf sk with
    | none => rfl
    | some pk =>
      cases rand with
      | none => rfl
      | some r =>
        simp only
        cases C.sign sk h r with
        | none => rfl
        | some s => rfl

/-! ## C160 -/

/-- A generator that does not fail. -/
def Works (rng : Nat → Draw) : Prop := ∀ i, ∃ b, rng i = .filled b ∧ b.length = 32

theorem attempts_works {C : Curve} {rng : Nat → Draw} (hw : Works rng) : ∀ (k i : Nat) (buf : Bytes), buf.length = 32 →
    (∃ b, attempts C rng k i buf = .exhausted b ∧ b.length = 32) ∨ ∃ b, attempts C rng k i buf = .key b ∧ b.length = 32 := by
  intro k
  induction k with
  | zero => intro i buf h; exact .inl ⟨buf, rfl, h⟩
  | succ k ih =>
    intro i buf h
    obtain ⟨b, hb, hl⟩ := hw i
    simp only [attempts, hb]
    by_cases hv : C.valid b = true
    · rw [if_pos hv]; exact .inr ⟨b, rfl, hl⟩
    · rw [if_neg hv]; exact ih (i + 1) b hl

/-- What the buffers and, if the call fails, the caller's private key held before the call. -/
def before (f : KeyFrame) (r : Res Unit) (priv : Bytes) : List Bytes := f.dead ++ if r = .ok () then [] else [priv]

/-- C160: generating a key, when the random generator works. Nothing is left of the key but its public key; when no key is
found, nothing is left of the candidates. The outcome is that of the value model. -/
theorem C160_generate_partial {C : Curve} {rng : Nat → Draw} {f : KeyFrame} {priv pub : Bytes} (hf : KeyFrame.Sized f) (hC : Pub32 C.pub)
    (hw : Works rng) (hp : priv.length = 32) :
    (let r := generateNc C rng f priv pub;
      Clean [r.view.2] (before f r.view.1 priv) r.left ∧ r.view.1 = (Nostr.Keys.generate .noscrypt C (.ok ()) rng priv pub).1 ∧
        r.view.2 = (Nostr.Keys.generate .noscrypt C (.ok ()) rng priv pub).2.2) ∧
    let r := generateSecp C rng priv pub;
    Clean [] (if r.view.1 = .ok () then [] else [priv]) r.left ∧ r.view.1 = (Nostr.Keys.generate .secp C (.ok ()) rng priv pub).1 ∧
        r.view.2 = (Nostr.Keys.generate .secp C (.ok ()) rng priv pub).2.2 := by
  obtain ⟨h1, h2, h3⟩ := hf
  have same' : ∀ (buf buf' : Bytes), attempts C rng 128 0 buf = attempts C rng 128 0 buf' := by
    have h : ∀ k (buf buf' : Bytes), attempts C rng (k + 1) 0 buf = attempts C rng (k + 1) 0 buf' := by
      intro k buf buf'
      simp only [attempts]
    exact h 127
  constructor
  · simp only [generateNc, Nostr.Keys.generate]
    rw [same' [] f.secret]
    rcases attempts_works (C := C) hw 128 0 f.secret h1 with ⟨b, e, hb⟩ | ⟨b, e, hb⟩
    · simp [e, before, KeyFrame.dead, Clean, wipe_all hb.symm, hb, h1]
    · simp only [e]
      cases hq : C.pub b with
      | none => simp [before, KeyFrame.dead, Clean, wipe_all hb.symm, hb, h1]
      | some p =>
        have hpk := over_all (d := p) (b := f.pub) (by rw [hC b p hq, h2])
        simp [before, KeyFrame.dead, Clean, wipe_all hb.symm, hb, h1, hpk]
  · simp only [generateSecp, Nostr.Keys.generate]
    rcases attempts_works (C := C) hw 128 0 priv hp with ⟨b, e, hb⟩ | ⟨b, e, hb⟩
    · simp [e, Clean, wipe_all hb.symm, hb, hp]
    · simp only [e]
      cases hq : C.pub b with
      | none => simp [Clean, wipe_all hb.symm, hb, hp]
      | some p => simp [Clean]

/-- C160 fails when the generator fails: what it wrote, or a candidate rejected before, is left. -/
theorem C160_generator_refuted {C : Curve} {f : KeyFrame} {b priv pub : Bytes} (hv : C.valid b = false) :
    b ∈ (generateNc C (fun i => if i = 0 then .filled b else .failed b) f priv pub).left := by
  have e : attempts C (fun i => if i = 0 then .filled b else .failed b) 128 0 f.secret = .broken b := by
    simp [attempts, hv]
  simp only [generateNc, e, KeyFrame.dead, List.mem_append, List.mem_cons, true_or]

/-- C160: computing a shared secret leaves nothing but the peer's public key. -/
theorem C160_ecdh {shared : Bytes → Bytes → Option Bytes} {f : KeyFrame} {sk pk : Bytes} (hf : KeyFrame.Sized f) (hs : sk.length = 32) (hp : pk.length = 32)
    (hC : ∀ x, shared sk pk = some x → x.length = 32) :
    Clean [pk] f.dead (ecdhNc shared f sk pk).left ∧ (ecdhNc shared f sk pk).view = (match shared sk pk with
      | none => .err .invalidKey
      | some x => .ok x) := by
  obtain ⟨h1, h2, h3⟩ := hf
  have w1 : wipe 32 (over 0 sk f.secret) = List.replicate f.secret.length 0 := wipe_over (by omega) (by omega)
  have e2 := over_all (hp.trans h2.symm)
  unfold ecdhNc
  cases hx : shared sk pk with
  | none => simp [KeyFrame.dead, Clean, w1, e2]
  | some x =>
    have hl := hC x hx
    have w3 : wipe 32 (over 0 x f.extra) = List.replicate f.extra.length 0 := wipe_over (by omega) (by omega)
    simp [KeyFrame.dead, Clean, w1, e2, w3, take_all (hl.trans h3.symm) h3]

/-- C160: importing a private key leaves nothing but its public key; when it fails, the key is wiped from the keypair too.
The outcome is that of the value model. -/
theorem C160_import {C : Curve} {f : KeyFrame} {k : Pair} {sk : Bytes} (hf : KeyFrame.Sized f) (hs : sk.length = 32) (hk : k.priv.length = 32)
    (hk' : k.pub.length = 32) (hC : Pub32 C.pub) :
    (let r := importNc C f k sk;
      Clean (C.pub sk).toList (before f r.view.1 k.priv) r.left ∧ r.view = Nostr.Keys.fromPrivate C (.ok ()) k sk) ∧
    let r := importSecp C k sk;
    Clean [] (if r.view.1 = .ok () then [] else [k.priv]) r.left ∧ r.view = Nostr.Keys.fromPrivate C (.ok ()) k sk := by
  obtain ⟨h1, h2, h3⟩ := hf
  have w1 : wipe 32 (over 0 sk f.secret) = List.replicate f.secret.length 0 := wipe_over (by omega) (by omega)
  have w2 : wipe 32 (over 0 sk k.priv) = List.replicate k.priv.length 0 := wipe_over (by omega) (by omega)
  have e1 := over_all (d := sk) (b := k.priv) (by omega)
  constructor
  · simp only [importNc, Nostr.Keys.fromPrivate]
    by_cases hv : C.valid sk = true
    · simp only [hv, if_true]
      cases hq : C.pub sk with
      | none => simp [before, KeyFrame.dead, Clean, w1, w2, Nostr.Keys.zeros, hk]
      | some p =>
        have hp := hC sk p hq
        have e2 := over_all (d := p) (b := f.pub) (by omega)
        have e3 := over_all (d := p) (b := k.pub) (by omega)
        simp [before, KeyFrame.dead, Clean, w1, e1, e2, e3]
    · simp [hv, before, KeyFrame.dead, Clean, w1, w2, Nostr.Keys.zeros, hk]
  · simp only [importSecp, Nostr.Keys.fromPrivate]
    by_cases hv : C.valid sk = true
    · simp only [hv, if_true]
      cases hq : C.pub sk with
      | none => simp [Clean, w2, Nostr.Keys.zeros, hk]
      | some p =>
        have hp := hC sk p hq
        have e3 := over_all (d := p) (b := k.pub) (by omega)
        simp [Clean, e1, e3]
    · simp [hv, Clean, w2, Nostr.Keys.zeros, hk]

/-- C160 fails for texts: a private key text with a bad character leaves the bytes before it in the keypair, although the
call fails. -/
theorem C160_text_refuted (import_ : Pair → Bytes → Run (Res Unit × Pair)) :
    ∃ (k : Pair) (hex : Bytes), k.priv = List.replicate 32 0 ∧ (importHex true import_ k hex).view.1 = .err .invalidKey ∧
      ∃ l ∈ (importHex true import_ k hex).left, l.take 16 = List.replicate 16 0xab := by
  refine ⟨⟨List.replicate 32 0, List.replicate 32 0, false⟩, (List.replicate 16 (c!"ab")).flatten ++ List.replicate 32 0x7a, rfl, ?_, ?_⟩
  · have h : Nostr.Keys.privFromHex true ((List.replicate 16 (c!"ab")).flatten ++ List.replicate 32 0x7a) (List.replicate 32 0) =
        (.err .invalidKey, List.replicate 16 0xab ++ List.replicate 16 0) := by decide +kernel
    simp only [importHex, h]
  · have h : Nostr.Keys.privFromHex true ((List.replicate 16 (c!"ab")).flatten ++ List.replicate 32 0x7a) (List.replicate 32 0) =
        (.err .invalidKey, List.replicate 16 0xab ++ List.replicate 16 0) := by decide +kernel
    simp only [importHex, h]
    exact ⟨_, List.mem_singleton.2 rfl, by decide⟩

/-- C160: checking a keypair leaves nothing but public keys: the one in the keypair and the one that belongs to the private key.
The outcome is that of the value model. -/
theorem C160_validate {C : Curve} {f : KeyFrame} {k : Pair} (hf : KeyFrame.Sized f) (hk : k.priv.length = 32) (hk' : k.pub.length = 32) (hC : Pub32 C.pub)
    (hr : k.ready = true) : Clean (k.pub :: (C.pub k.priv).toList) f.dead (validateNc C f k).left ∧
      (validateNc C f k).view = Nostr.Keys.validate C (.ok ()) k := by
  obtain ⟨h1, h2, h3⟩ := hf
  have w1 : wipe 32 (over 0 k.priv f.secret) = List.replicate f.secret.length 0 := wipe_over (by omega) (by omega)
  have e2 := over_all (d := k.pub) (b := f.pub) (by omega)
  simp only [validateNc, Nostr.Keys.validate, hr, if_true, Res.bind_ok]
  by_cases hv : C.valid k.priv = true
  · simp only [hv, if_true]
    cases hq : C.pub k.priv with
    | none => simp [KeyFrame.dead, Clean, w1, e2]
    | some p =>
      have hp := hC _ p hq
      have e3 := over_all (d := p) (b := f.extra) (by omega)
      simp [KeyFrame.dead, Clean, w1, e2, e3]
  · simp [hv, KeyFrame.dead, Clean, w1, e2]

/-- C160: destroying a keypair leaves zeros in place of both keys. -/
theorem C160_destroy {k : Pair} (hk : k.priv.length = 32) (hk' : k.pub.length = 32) :
    Clean [] [k.priv, k.pub] [(destroyPair k).priv, (destroyPair k).pub] ∧ (destroyPair k).priv = List.replicate 32 0 ∧
      destroyPair k = Nostr.Keys.destroyPair := by
  simp [destroyPair, Nostr.Keys.destroyPair, Nostr.Keys.zeros, Clean, wipe_all hk.symm, wipe_all hk'.symm, hk, hk']

/-! ## Cases -/

/-- Buffers full of 0x55. -/
def frame : NcFrame := ⟨List.replicate 32 0x55, List.replicate 32 0x55, List.replicate 32 0x55⟩

def keyFrame : KeyFrame := ⟨List.replicate 32 0x55, List.replicate 32 0x55, List.replicate 32 0x55⟩

/-- A toy library. -/
def toy : Crypto where
  sha256 t := (t ++ List.replicate 32 0).take 32
  pubOf sk := some (sk.map (· + 1))
  sign _ m r := if r.head? = some 0 then none else some (m ++ r)
  validPub _ := true
  verify _ _ _ := true

example : NcFrame.Sized frame ∧ KeyFrame.Sized keyFrame ∧ Pub32 (fun b => if b.length = 32 then some b else none) ∧ Draw32 (some (List.replicate 32 1)) := by
  refine ⟨by simp [NcFrame.Sized, frame], by simp [KeyFrame.Sized, keyFrame], fun sk pk h => ?_, by simp [Draw32]⟩
  simp only at h; split at h
  · rename_i h'; cases h; exact h'
  · cases h

example : (delegNc toy frame (some (List.replicate 32 1)) (List.replicate 32 7) (List.replicate 32 3)).view =
      .ok (List.replicate 32 8, List.replicate 32 3 ++ List.replicate 32 1) ∧
    (delegNc toy frame (some (List.replicate 32 1)) (List.replicate 32 7) (List.replicate 32 3)).left =
      [List.replicate 32 0, List.replicate 32 8, List.replicate 32 0] := by decide +kernel

example : (delegNc toy frame (some (List.replicate 32 0)) (List.replicate 32 7) (List.replicate 32 3)).view = .err .invalidSignature := by decide +kernel

example : (signNc toy (.cjson id fun _ => []) frame (some (List.replicate 32 1)) (List.replicate 32 7) Event.zero).view.1 = .ok () := by decide +kernel

/-- A curve that rejects keys of zeros, and a generator that delivers such a key and then fails. -/
example : List.replicate 32 0 ∈ (generateNc ⟨fun b => b.any (· ≠ 0), some⟩ (fun i => if i = 0 then .filled (List.replicate 32 0) else .failed (List.replicate 32 0))
    keyFrame (List.replicate 32 1) (List.replicate 32 2)).left := C160_generator_refuted (by decide)

example : Works fun _ => .filled (List.replicate 32 9) := fun _ => ⟨_, rfl, by simp⟩

end Nostr.Wipe.Keys.Props
