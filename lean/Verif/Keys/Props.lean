import Verif.Keys.Spec
import Verif.Hex.Props

/-! # Property theorems: keypairs, random bytes, key generation, shared secrets (C120-C124) -/

namespace Nostr.Keys.Props
open Nostr Nostr.Keys Nostr.Keys.Spec

/-! ## C120 keypairs -/

/-- Filling a keypair, from whatever state, either succeeds with a consistent keypair or leaves the flag as
it was. -/
theorem fill_cases (b : Build) (lax : Bool) (C : Curve) (k : Pair) (op : Op) :
    ((step b lax C k op).1 = .ok () ∧ Consistent C (step b lax C k op).2) ∨
      ((step b lax C k op).1 ≠ .ok () ∧ (step b lax C k op).2.ready = k.ready) := by
  have hp : ∀ (ctx : Res Unit) (k : Pair) (priv : Bytes),
      ((fromPrivate C ctx k priv).1 = .ok () ∧ Consistent C (fromPrivate C ctx k priv).2) ∨
      ((fromPrivate C ctx k priv).1 ≠ .ok () ∧ (fromPrivate C ctx k priv).2.ready = k.ready) := by
    intro ctx k priv
    unfold fromPrivate
    cases ctx with
    | err e => right; simp
    | ub => right; simp
    | ok u =>
      simp only
      split
      · rename_i hv
        split
        · right; simp
        · rename_i p hpub
          left; exact ⟨rfl, fun _ => ⟨hv, hpub⟩⟩
      · right; simp
  cases op with
  | init => left; exact ⟨rfl, fun h => by simp [step, initPair] at h⟩
  | destroy => left; exact ⟨rfl, fun h => by simp [step, destroyPair] at h⟩
  | fromPrivate ctx priv => exact hp ctx k priv
  | fromHex ctx hex =>
      simp only [step, fromHex]
      generalize privFromHex lax hex k.priv = r
      obtain ⟨r, priv⟩ := r
      cases r with
      | ok u => exact hp ctx { k with priv := priv } priv
      | err e => right; simp
      | ub => right; simp
  | generate ctx rng =>
      have hk : ∀ (n i : Nat) (buf key : Bytes), attempts C rng n i buf = .key key → C.valid key = true := by
        intro n
        induction n with
        | zero => intro i buf key h; simp [attempts] at h
        | succ n ih =>
          intro i buf key h
          unfold attempts at h
          split at h
          · simp at h
          · split at h
            · rename_i hv
              simp only [Found.key.injEq] at h
              exact h ▸ hv
            · exact ih _ _ _ h
      simp only [step, pairGenerate, generate]
      cases ctx with
      | err e => right; simp
      | ub => right; simp
      | ok u =>
        cases b with
        | noscrypt =>
          simp only
          cases hf : attempts C rng 128 0 [] with
          | broken l => right; simp
          | exhausted l => right; simp
          | key key =>
            cases hpub : C.pub key with
            | none => right; simp [hpub]
            | some p => left; simp only [hpub]; exact ⟨trivial, fun _ => ⟨hk _ _ _ _ hf, hpub⟩⟩
        | secp =>
          simp only
          cases hf : attempts C rng 128 0 k.priv with
          | broken l => right; simp
          | exhausted l => right; simp
          | key key =>
            cases hpub : C.pub key with
            | none => right; simp [hpub]
            | some p => left; simp only [hpub]; exact ⟨trivial, fun _ => ⟨hk _ _ _ _ hf, hpub⟩⟩

/-- The calls that fill a keypair set the flag when they succeed. -/
theorem fill_ready (b : Build) (lax : Bool) (C : Curve) (k : Pair) (op : Op) (hf : Op.fills op = true)
    (h : (step b lax C k op).1 = .ok ()) : (step b lax C k op).2.ready = true := by
  have hp : ∀ (ctx : Res Unit) (k : Pair) (priv : Bytes), (fromPrivate C ctx k priv).1 = .ok () →
      (fromPrivate C ctx k priv).2.ready = true := by
    intro ctx k priv h
    unfold fromPrivate at h ⊢
    cases ctx with
    | err e => simp at h
    | ub => simp at h
    | ok u =>
      simp only at h ⊢
      split at h
      · rename_i hv
        simp only [hv, if_true] at h ⊢
        split at h
        · simp at h
        · rename_i p hpub; simp [hpub]
      · simp at h
  cases op with
  | init => simp [Op.fills] at hf
  | destroy => simp [Op.fills] at hf
  | fromPrivate ctx priv => exact hp ctx k priv h
  | fromHex ctx hex =>
      simp only [step, fromHex] at h ⊢
      generalize privFromHex lax hex k.priv = r at h ⊢
      obtain ⟨r, priv⟩ := r
      cases r with
      | ok u => exact hp _ _ _ h
      | err e => simp at h
      | ub => simp at h
  | generate ctx rng =>
      simp only [step, pairGenerate] at h ⊢
      generalize generate b C ctx rng k.priv k.pub = r at h ⊢
      obtain ⟨r, priv, pub⟩ := r
      cases r with
      | ok u => rfl
      | err e => simp at h
      | ub => simp at h

/-- **C120 (a successful call).** Whatever the keypair held before: when generation or import reports
success, both keys can be read, the private key is valid, the public key belongs to it, and the check of
the keypair succeeds. -/
theorem C120_success (b : Build) (lax : Bool) (C : Curve) (k : Pair) (op : Op) (hf : Op.fills op = true)
    (h : (step b lax C k op).1 = .ok ()) :
    ∃ sk pk, privateKey (step b lax C k op).2 = some sk ∧ publicKey (step b lax C k op).2 = some pk ∧
      C.valid sk = true ∧ C.pub sk = some pk ∧ validate C (.ok ()) (step b lax C k op).2 = .ok () := by
  have hr := fill_ready b lax C k op hf h
  rcases fill_cases b lax C k op with ⟨_, hc⟩ | ⟨hn, _⟩
  · obtain ⟨hv, hp⟩ := hc hr
    refine ⟨_, _, by simp [privateKey, hr], by simp [publicKey, hr], hv, hp, ?_⟩
    simp [validate, hr, hv, hp, (Hex.Props.C10_exact _ _ rfl).2]
  · exact absurd h hn

/-- **C120 (histories).** Starting from an initialised keypair, after any calls none of which failed on a
keypair that already had keys: the keys that can be read are a valid private key and its public key. -/
theorem C120_history_partial (b : Build) (lax : Bool) (C : Curve) (ops : List Op)
    (h : Careful b lax C initPair ops) (sk : Bytes) (hk : privateKey (run b lax C initPair ops) = some sk) :
    C.valid sk = true ∧ publicKey (run b lax C initPair ops) = C.pub sk := by
  have main : ∀ (ops : List Op) (k : Pair), Consistent C k → Careful b lax C k ops →
      Consistent C (run b lax C k ops) := by
    intro ops
    induction ops with
    | nil => intro k hc _; exact hc
    | cons op ops ih =>
      intro k hc hcar
      refine ih _ ?_ hcar.2
      rcases fill_cases b lax C k op with ⟨_, h⟩ | ⟨hn, hsame⟩
      · exact h
      · intro hr
        exact absurd (hcar.1 (hsame ▸ hr)) hn
  have hc := main ops initPair (fun h => by simp [initPair] at h) h
  unfold privateKey at hk
  split at hk
  · rename_i hr
    obtain ⟨hv, hp⟩ := hc hr
    simp only [Option.some.injEq] at hk
    subst hk
    exact ⟨hv, by simp [publicKey, hr, hp]⟩
  · simp at hk

/-- **C120 refuted.** Importing an invalid private key into a keypair that has keys fails, but the keypair
still hands out keys: an all-zero private key beside the old public key, and exporting the private key
reports success. -/
theorem C120_failed_import_refuted (b : Build) (lax : Bool) (C : Curve) (hz : C.valid zeros = false)
    (good pub bad : Bytes) (hg : C.valid good = true) (hp : C.pub good = some pub) (hb : C.valid bad = false)
    (ops : List Op) (ho : ops = [.fromPrivate (.ok ()) good, .fromPrivate (.ok ()) bad]) :
    let k := run b lax C initPair ops
    (step b lax C (run b lax C initPair [.fromPrivate (.ok ()) good]) (.fromPrivate (.ok ()) bad)).1 = .err .invalidKey ∧
    privateKey k = some zeros ∧ publicKey k = some pub ∧
    exportPrivate k 65 = .ok (List.replicate 64 0x30) ∧ validate C (.ok ()) k = .err .invalidKey := by
  subst ho
  simp only [run, step, fromPrivate, hg, hp, hb, if_true, Bool.false_eq_true, if_false]
  refine ⟨trivial, rfl, rfl, ?_, ?_⟩
  · show Hex.keyToHex zeros 65 = _
    decide +kernel
  · simp [validate, hz]

/-- **C120 refuted (text).** A private key text with a bad character in the middle replaces the beginning
of the private key and fails; the keypair still hands out the mixture. -/
theorem C120_failed_text_refuted : ∃ (C : Curve) (hex : Bytes) (k : Pair), Consistent C k ∧ k.ready = true ∧
    (fromHex true C (.ok ()) k hex).1 = .err .invalidKey ∧
    privateKey (fromHex true C (.ok ()) k hex).2 = some (0xff :: List.replicate 31 1) ∧
    publicKey (fromHex true C (.ok ()) k hex).2 = publicKey k :=
  ⟨⟨fun b => b.head? == some 1, fun b => some b⟩, c!"ff" ++ List.replicate 62 0x7a,
    ⟨List.replicate 32 1, List.replicate 32 1, true⟩, fun _ => by decide +kernel, rfl, by decide +kernel,
    by decide +kernel, by decide +kernel⟩

/-- Destroying or initialising a keypair makes its keys unreadable and leaves neither of them in it. -/
theorem C120_destroy (b : Build) (lax : Bool) (C : Curve) (k : Pair) (op : Op) (h : op = .init ∨ op = .destroy) :
    let k' := (step b lax C k op).2
    privateKey k' = none ∧ publicKey k' = none ∧ (∀ n, exportPrivate k' n = .err .invalidParam) ∧
    (∀ n, exportPublic k' n = .err .invalidParam) ∧ k'.priv = List.replicate 32 0 ∧ k'.pub = List.replicate 32 0 := by
  rcases h with rfl | rfl <;> exact ⟨rfl, rfl, fun _ => rfl, fun _ => rfl, rfl, rfl⟩

/-- **C120 (export and import).** The text of an exported private key, imported anywhere, gives the same
two keys. -/
theorem C120_export_import (lax : Bool) (C : Curve) (k k' : Pair) (n : Nat) (text : Bytes)
    (hk : Consistent C k) (hl : k.priv.length = 32) (hl' : k'.priv.length = 32) (h : exportPrivate k n = .ok text) :
    fromHex lax C (.ok ()) k' text = (.ok (), k) := by
  have into : ∀ (n : Nat) (s old bs : Bytes), old.length = n → Hex.keyLoop lax n s = .ok bs →
      scanInto lax n s old = (.ok (), bs) := by
    intro n
    induction n with
    | zero =>
      intro s old bs ho h
      simp only [Hex.keyLoop, Res.ok.injEq] at h
      simp [scanInto, ← h, List.eq_nil_of_length_eq_zero ho]
    | succ n ih =>
      intro s old bs ho h
      unfold Hex.keyLoop at h
      split at h
      · simp at h
      · rename_i b hb
        obtain ⟨rest, hr, he⟩ := Res.bind_eq_ok.1 h
        simp only [Res.ok.injEq] at he
        simp only [scanInto, hb, ih _ old.tail _ (by simp [ho]) hr, he]
  unfold exportPrivate at h
  split at h
  · rename_i hr
    obtain ⟨hv, hp⟩ := hk hr
    have hb := (Hex.Props.C73_round_trip lax k.priv text n hl h)
    unfold Hex.keyFromHex at hb
    split at hb
    · simp at hb
    · rename_i h64
      have hs := into 32 text k'.priv k.priv hl' hb.2.2.2
      simp only [fromHex, privFromHex, if_neg h64, hs, fromPrivate, hv, hp, if_true]
      cases k; simp_all
  · simp at h

theorem into_ok (lax : Bool) : ∀ (n : Nat) (s old bs : Bytes), old.length = n → (scanInto lax n s old = (.ok (), bs) ↔ Hex.keyLoop lax n s = .ok bs) := by
  intro n
  induction n with
  | zero =>
    intro s old bs ho
    have := List.eq_nil_of_length_eq_zero ho
    subst this
    simp [scanInto, Hex.keyLoop]
  | succ n ih =>
    intro s old bs ho
    unfold Hex.keyLoop scanInto
    cases Hex.scan2 lax s with
    | none => simp
    | some b =>
      simp only [Prod.mk.injEq]
      constructor
      · rintro ⟨h1, h2⟩
        have h3 := (ih (s.drop 2) old.tail (scanInto lax n (s.drop 2) old.tail).2 (by simp [ho])).1 (Prod.ext h1 rfl)
        rw [h3, Res.bind_ok, h2]
      · intro h
        obtain ⟨rest, hr, he⟩ := Res.bind_eq_ok.1 h
        cases he
        have h3 := (ih (s.drop 2) old.tail rest (by simp [ho])).2 hr
        rw [h3]; exact ⟨rfl, rfl⟩

/-- **C120 (text).** A text is imported exactly when it is the text of a valid private key; the keypair then holds that key and its
public key. -/
theorem C120_text (lax : Bool) (C : Curve) (k k' : Pair) (hex : Bytes) (hl : k.priv.length = 32) :
    fromHex lax C (.ok ()) k hex = (.ok (), k') ↔
      k'.ready = true ∧ hex.length = 64 ∧ Hex.keyFromHex lax hex = .ok k'.priv ∧ C.valid k'.priv = true ∧ C.pub k'.priv = some k'.pub := by
  unfold fromHex privFromHex Hex.keyFromHex
  by_cases h64 : hex.length ≠ 64
  · simp [h64]
  · simp only [if_neg h64]
    have hi := fun bs => into_ok lax 32 hex k.priv bs hl
    rcases hs : scanInto lax 32 hex k.priv with ⟨r, bs⟩
    cases r with
    | ub =>
      refine ⟨fun h => by simp at h, fun h => ?_⟩
      have := (hi k'.priv).2 h.2.2.1
      rw [hs] at this; simp at this
    | err x =>
      refine ⟨fun h => by simp at h, fun h => ?_⟩
      have := (hi k'.priv).2 h.2.2.1
      rw [hs] at this; simp at this
    | ok u =>
      have hb := (hi bs).1 hs
      rw [hb]
      simp only [fromPrivate, Res.ok.injEq]
      obtain ⟨kp, ku, kr⟩ := k'
      cases hv : C.valid bs with
      | false =>
        simp only [Bool.false_eq_true, if_false, Prod.mk.injEq, reduceCtorEq, false_and, false_iff]
        rintro ⟨-, -, rfl, h, -⟩
        rw [hv] at h; simp at h
      | true =>
        simp only [if_true]
        cases hp : C.pub bs with
        | none =>
          simp only [Prod.mk.injEq, reduceCtorEq, false_and, false_iff]
          rintro ⟨-, -, rfl, -, h⟩
          rw [hp] at h; simp at h
        | some p =>
          simp only [Prod.mk.injEq, Pair.mk.injEq, true_and]
          constructor
          · rintro ⟨rfl, rfl, rfl⟩; exact ⟨rfl, by omega, rfl, hv, hp⟩
          · rintro ⟨rfl, -, rfl, -, h⟩
            rw [hp] at h
            exact ⟨rfl, by simpa using h, rfl⟩

/-- A toy curve: secrets beginning with 1 to 9 are valid, the public key is the secret with every byte
doubled. -/
def toy : Curve := ⟨fun b => decide (∃ c ∈ b.head?, 0 < c ∧ c < 10), fun b => some (b.map (· * 2))⟩

/-- Generation after an invalid draw, destruction, import of a text: a careful history with keys at the
end. -/
example : let ops : List Op := [.generate (.ok ()) (fun i => .filled (List.replicate 32 (UInt8.ofNat i))), .destroy,
      .fromHex (.ok ()) c!"xyz", .fromHex (.ok ()) (List.replicate 64 0x30), .fromHex (.ok ()) (c!"0708" ++ List.replicate 60 0x30)]
    Careful .secp true toy initPair ops ∧
    privateKey (run .secp true toy initPair ops) = some ([7, 8] ++ List.replicate 30 0) ∧
    publicKey (run .secp true toy initPair ops) = some ([14, 16] ++ List.replicate 30 0) := by
  refine ⟨?_, by decide +kernel, by decide +kernel⟩
  refine ⟨by decide +kernel, by decide +kernel, by decide +kernel, by decide +kernel, by decide +kernel, trivial⟩

/-- The hypotheses of `C120_failed_import_refuted` for the toy curve. -/
example : toy.valid zeros = false ∧ toy.valid (5 :: List.replicate 31 3) = true ∧
    toy.valid (50 :: List.replicate 31 3) = false := by decide +kernel

/-- The hypotheses of `C120_export_import`. -/
example : exportPrivate ⟨List.replicate 32 5, List.replicate 32 10, true⟩ 65 = .ok (List.flatten (List.replicate 32 c!"05")) ∧
    fromHex false toy (.ok ()) initPair (List.flatten (List.replicate 32 c!"05")) =
      (.ok (), ⟨List.replicate 32 5, List.replicate 32 10, true⟩) := by decide +kernel

/-! ## C121 checking a keypair -/

/-- **C121.** The check succeeds exactly for a keypair with keys whose private key is valid and whose public
key belongs to it. -/
theorem C121_validate (C : Curve) (k : Pair) (hlen : ∀ p, C.pub k.priv = some p → p.length = k.pub.length) :
    validate C (.ok ()) k = .ok () ↔ k.ready = true ∧ C.valid k.priv = true ∧ C.pub k.priv = some k.pub := by
  unfold validate
  cases k.ready with
  | false => simp
  | true =>
    simp only [if_true, Res.bind_ok, true_and]
    cases C.valid k.priv with
    | false => simp
    | true =>
      simp only [if_true, true_and]
      cases hp : C.pub k.priv with
      | none => simp
      | some p =>
        simp only [Option.some.injEq]
        have hl := hlen p hp
        by_cases he : Hex.ctMemcmp k.pub p = 0
        · rw [if_pos he]
          exact ⟨fun _ => ((Hex.Props.C10_exact _ _ hl.symm).1 he).symm, fun _ => rfl⟩
        · rw [if_neg he]
          constructor
          · intro h; simp at h
          · intro h; exact absurd ((Hex.Props.C10_exact _ _ hl.symm).2 h.symm) he

example : validate toy (.ok ()) ⟨List.replicate 32 5, List.replicate 32 10, true⟩ = .ok () ∧
    validate toy (.ok ()) ⟨List.replicate 32 5, List.replicate 32 11, true⟩ = .err .invalidKey ∧
    validate toy (.ok ()) ⟨List.replicate 32 0, List.replicate 32 0, true⟩ = .err .invalidKey := by decide +kernel

/-! ## C122 key generation -/

theorem attempts_key (C : Curve) (rng : Nat → Draw) : ∀ (n i : Nat) (buf key : Bytes),
    attempts C rng n i buf = .key key ↔
      ∃ j < n, rng (i + j) = .filled key ∧ C.valid key = true ∧
        ∀ l < j, ∃ b, rng (i + l) = .filled b ∧ C.valid b = false := by
  intro n
  induction n with
  | zero => intro i buf key; simp [attempts]
  | succ n ih =>
    intro i buf key
    cases hr : rng i with
    | failed left =>
      simp only [attempts, hr]
      constructor
      · intro h; simp at h
      · rintro ⟨j, _, hj, _, hl⟩
        cases j with
        | zero => rw [Nat.add_zero, hr] at hj; simp at hj
        | succ j =>
          obtain ⟨b, hb, _⟩ := hl 0 (by omega)
          rw [Nat.add_zero, hr] at hb; simp at hb
    | filled b =>
      simp only [attempts, hr]
      cases hv : C.valid b with
      | true =>
        simp only [if_true, Found.key.injEq]
        constructor
        · rintro rfl
          exact ⟨0, by omega, by rw [Nat.add_zero, hr], hv, fun l hl => by omega⟩
        · rintro ⟨j, _, hj, _, hl⟩
          cases j with
          | zero => rw [Nat.add_zero, hr] at hj; simpa using hj
          | succ j =>
            obtain ⟨b', hb, hb'⟩ := hl 0 (by omega)
            rw [Nat.add_zero, hr] at hb
            simp only [Draw.filled.injEq] at hb
            rw [← hb, hv] at hb'; simp at hb'
      | false =>
        simp only [Bool.false_eq_true, if_false]
        rw [ih]
        constructor
        · rintro ⟨j, hj, h1, h2, h3⟩
          refine ⟨j + 1, by omega, by rw [← h1]; congr 1; omega, h2, ?_⟩
          intro l hl
          cases l with
          | zero => exact ⟨b, by rw [Nat.add_zero, hr], hv⟩
          | succ l =>
            obtain ⟨b', hb⟩ := h3 l (by omega)
            exact ⟨b', by rw [← hb.1]; congr 1; omega, hb.2⟩
        · rintro ⟨j, hj, h1, h2, h3⟩
          cases j with
          | zero =>
            rw [Nat.add_zero, hr] at h1
            simp only [Draw.filled.injEq] at h1
            rw [← h1, hv] at h2; simp at h2
          | succ j =>
            refine ⟨j, by omega, by rw [← h1]; congr 1; omega, h2, ?_⟩
            intro l hl
            obtain ⟨b', hb⟩ := h3 (l + 1) (by omega)
            exact ⟨b', by rw [← hb.1]; congr 1; omega, hb.2⟩

/-- **C122.** Generation succeeds with the keys `sk`, `pk` exactly when `sk` is the first valid one of the
first 128 strings the generator delivers, without a failure before it, and `pk` is its public key. -/
theorem C122_generate (b : Build) (C : Curve) (rng : Nat → Draw) (priv pub sk pk : Bytes) :
    generate b C (.ok ()) rng priv pub = (.ok (), sk, pk) ↔
      (∃ j < 128, rng j = .filled sk ∧ C.valid sk = true ∧
        ∀ l < j, ∃ s, rng l = .filled s ∧ C.valid s = false) ∧ C.pub sk = some pk := by
  have key : ∀ buf, (∃ j < 128, rng j = .filled sk ∧ C.valid sk = true ∧
        ∀ l < j, ∃ s, rng l = .filled s ∧ C.valid s = false) ↔ attempts C rng 128 0 buf = .key sk := by
    intro buf; rw [attempts_key]; simp
  cases b with
  | noscrypt =>
    rw [key []]
    simp only [generate]
    cases hf : attempts C rng 128 0 [] with
    | broken l => simp
    | exhausted l => simp
    | key k =>
      simp only [Found.key.injEq]
      cases hp : C.pub k with
      | none => simp only [Prod.mk.injEq, reduceCtorEq, false_and, false_iff]; rintro ⟨rfl, h⟩; rw [hp] at h; simp at h
      | some p =>
        simp only [Prod.mk.injEq, true_and]
        constructor
        · rintro ⟨rfl, rfl⟩; exact ⟨rfl, hp⟩
        · rintro ⟨rfl, h⟩; rw [hp] at h; exact ⟨rfl, by simpa using h⟩
  | secp =>
    rw [key priv]
    simp only [generate]
    cases hf : attempts C rng 128 0 priv with
    | broken l => simp
    | exhausted l => simp
    | key k =>
      simp only [Found.key.injEq]
      cases hp : C.pub k with
      | none => simp only [Prod.mk.injEq, reduceCtorEq, false_and, false_iff]; rintro ⟨rfl, h⟩; rw [hp] at h; simp at h
      | some p =>
        simp only [Prod.mk.injEq, true_and]
        constructor
        · rintro ⟨rfl, rfl⟩; exact ⟨rfl, hp⟩
        · rintro ⟨rfl, h⟩; rw [hp] at h; exact ⟨rfl, by simpa using h⟩

/-- **C122 (no key found).** When no valid key is found, the private key buffer is as it was or wiped, and the public key buffer is
as it was: no rejected secret is left to the caller. -/
theorem C122_rejected (b : Build) (C : Curve) (ready : Res Unit) (rng : Nat → Draw) (priv pub : Bytes)
    (h : (generate b C ready rng priv pub).1 = .err .invalidKey) :
    ((generate b C ready rng priv pub).2.1 = priv ∨ (generate b C ready rng priv pub).2.1 = List.replicate 32 0) ∧
      (generate b C ready rng priv pub).2.2 = pub := by
  unfold generate at h ⊢
  cases ready with
  | err e => exact ⟨.inl rfl, rfl⟩
  | ub => exact ⟨.inl rfl, rfl⟩
  | ok _ =>
    cases b with
    | noscrypt =>
      simp only at h ⊢
      cases hf : attempts C rng 128 0 [] with
      | broken l => rw [hf] at h; simp at h
      | exhausted l => exact ⟨.inl rfl, rfl⟩
      | key k =>
        simp only [hf] at h ⊢
        cases hp : C.pub k with
        | none => exact ⟨.inl rfl, rfl⟩
        | some p => rw [hp] at h; simp at h
    | secp =>
      simp only at h ⊢
      cases hf : attempts C rng 128 0 priv with
      | broken l => rw [hf] at h; simp at h
      | exhausted l => exact ⟨.inr rfl, rfl⟩
      | key k =>
        simp only [hf] at h ⊢
        cases hp : C.pub k with
        | none => exact ⟨.inr rfl, rfl⟩
        | some p => rw [hp] at h; simp at h

/-- The hypothesis is met: a generator that always delivers the same invalid string. -/
example : generate .secp toy (.ok ()) (fun _ => .filled (List.replicate 32 200)) (List.replicate 32 7) [] = (.err .invalidKey, zeros, []) := by
  decide +kernel

/-- **C122 (failing generator).** If the generator fails before it has delivered a valid key, generation
reports an error; with noscrypt the caller's buffers are unchanged. -/
theorem C122_failure (b : Build) (C : Curve) (rng : Nat → Draw) (priv pub left : Bytes) (j : Nat) (hj : j < 128)
    (hf : rng j = .failed left) (hl : ∀ l < j, ∃ s, rng l = .filled s ∧ C.valid s = false) :
    (generate b C (.ok ()) rng priv pub).1 = .err .memory ∧
      (b = .noscrypt → (generate b C (.ok ()) rng priv pub).2 = (priv, pub)) := by
  have key : ∀ (n i j : Nat) (buf : Bytes), j < n → rng (i + j) = .failed left →
      (∀ l < j, ∃ s, rng (i + l) = .filled s ∧ C.valid s = false) → attempts C rng n i buf = .broken left := by
    intro n
    induction n with
    | zero => intro i j buf h; omega
    | succ n ih =>
      intro i j buf hj hf hl
      cases j with
      | zero => rw [Nat.add_zero] at hf; simp [attempts, hf]
      | succ j =>
        obtain ⟨s, hs, hv⟩ := hl 0 (by omega)
        rw [Nat.add_zero] at hs
        simp only [attempts, hs, hv, Bool.false_eq_true, if_false]
        refine ih (i + 1) j s (by omega) (by rw [← hf]; congr 1; omega) ?_
        intro l hlt
        obtain ⟨s', h1, h2⟩ := hl (l + 1) (by omega)
        exact ⟨s', by rw [← h1]; congr 1; omega, h2⟩
  cases b with
  | noscrypt => simp [generate, key 128 0 j [] hj (by simpa using hf) (by simpa using hl)]
  | secp => simp [generate, key 128 0 j priv hj (by simpa using hf) (by simpa using hl)]

/-- Two invalid draws and a valid one; an invalid draw and a failure. -/
example : generate .secp toy (.ok ()) (fun i => if i < 2 then .filled zeros else .filled (List.replicate 32 4)) zeros zeros =
      (.ok (), List.replicate 32 4, List.replicate 32 8) ∧
    generate .noscrypt toy (.ok ()) (fun i => if i < 1 then .filled zeros else .failed []) zeros zeros =
      (.err .memory, zeros, zeros) := by decide +kernel

/-! ## C123 random bytes -/

theorem requests_cons {max len : Nat} (hm : 0 < max) (hl : 0 < len) :
    requests max len = min max len :: requests max (len - min max len) := by
  unfold requests
  by_cases h : max ≤ len
  · have h1 : len / max = (len - max) / max + 1 := by
      rw [Nat.div_eq_sub_div hm h]
    have h2 : len % max = (len - max) % max := Nat.mod_eq_sub_mod h
    rw [Nat.min_eq_left h, h1, h2, List.replicate_succ, List.cons_append]
  · have h' : len < max := by omega
    rw [Nat.min_eq_right (by omega), Nat.sub_self, Nat.div_eq_of_lt h', Nat.mod_eq_of_lt h', if_neg (by omega)]
    simp

/-- **C123.** Filling a buffer of any length asks for requests of at most `max` bytes that add up to the
length; the result is the answers one after the other, and fails exactly if one of them fails. -/
theorem C123_random (max : Nat) (hm : 0 < max) (draw : Nat → Nat → Option Bytes) (len : Nat) :
    randomBytes max draw len = (answers draw 0 (requests max len)).map List.flatten := by
  have main : ∀ (f i len : Nat), len ≤ f →
      randomLoop max draw f i len = (answers draw i (requests max len)).map List.flatten := by
    intro f
    induction f with
    | zero =>
      intro i len h
      have : len = 0 := by omega
      subst this
      simp [randomLoop, requests, answers]
    | succ f ih =>
      intro i len h
      by_cases h0 : len = 0
      · subst h0; simp [randomLoop, requests, answers]
      · have hc : (if len > max then max else len) = min max len := by
          split <;> omega
        have hpos : 0 < min max len := by omega
        simp only [randomLoop, if_neg h0, hc]
        rw [requests_cons hm (by omega)]
        simp only [answers]
        cases draw i (min max len) with
        | none => simp
        | some b =>
          rw [ih (i + 1) (len - min max len) (by omega)]
          cases answers draw (i + 1) (requests max (len - min max len)) <;> simp
  exact main len 0 len (Nat.le_refl _)

/-- **C123 (sizes).** The requests are at most `max` bytes, never empty, and add up to the length. -/
theorem C123_requests (max len : Nat) (hm : 0 < max) :
    (∀ n ∈ requests max len, 0 < n ∧ n ≤ max) ∧ (requests max len).sum = len := by
  constructor
  · intro n hn
    unfold requests at hn
    rcases List.mem_append.1 hn with h | h
    · have := List.eq_of_mem_replicate h; omega
    · split at h
      · simp at h
      · simp only [List.mem_singleton] at h
        have := Nat.mod_lt len hm
        omega
  · unfold requests
    rw [List.sum_append, List.sum_replicate_nat]
    have := Nat.div_add_mod len max
    have hc : len / max * max = max * (len / max) := Nat.mul_comm _ _
    split <;> simp <;> omega

/-- **C123 (length).** If every answer has the requested length, success means that all `len` bytes are
there. -/
theorem C123_length (max : Nat) (hm : 0 < max) (draw : Nat → Nat → Option Bytes)
    (hd : ∀ i n b, draw i n = some b → b.length = n) (len : Nat) (out : Bytes)
    (h : randomBytes max draw len = some out) : out.length = len := by
  have main : ∀ (ns : List Nat) (i : Nat) (bs : List Bytes), answers draw i ns = some bs →
      bs.flatten.length = ns.sum := by
    intro ns
    induction ns with
    | nil => intro i bs h; simp only [answers, Option.some.injEq] at h; subst h; rfl
    | cons n ns ih =>
      intro i bs h
      simp only [answers] at h
      split at h
      · rename_i b bs' hb hbs
        simp only [Option.some.injEq] at h
        subst h
        simp only [List.flatten_cons, List.length_append, List.sum_cons, ih _ _ hbs, hd _ _ _ hb]
      · simp at h
  rw [C123_random max hm] at h
  cases ha : answers draw 0 (requests max len) with
  | none => rw [ha] at h; simp at h
  | some bs =>
    rw [ha] at h
    simp only [Option.map_some, Option.some.injEq] at h
    rw [← h, main _ _ _ ha, (C123_requests max len hm).2]

/-- 2500 bytes in requests of at most 1024. -/
example : requests 1024 2500 = [1024, 1024, 452] ∧
    randomBytes 3 (fun i n => some (List.replicate n (UInt8.ofNat i))) 8 = some [0, 0, 0, 1, 1, 1, 2, 2] ∧
    randomBytes 3 (fun i n => if i < 2 then some (List.replicate n 0) else none) 8 = none := by decide +kernel

end Nostr.Keys.Props
