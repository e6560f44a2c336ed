import Verif.Wipe.Crypt
import Verif.Wipe.Spec
import Verif.Own.Defined
import Verif.Nip44.Props
import Verif.Nip04.Props

/-! # Property theorems: what message encryption leaves in memory (C164) -/

namespace Nostr.Wipe.Crypt.Props
open Nostr Nostr.Wipe Nostr.Wipe.Crypt Nostr.Wipe.Spec

/-- A block of `n` zero bytes. -/
abbrev zeros (n : Nat) : Bytes := List.replicate n 0

/-- The sizes of the buffers, in bytes. -/
def EncFrame.Sized (f : EncFrame) : Prop := f.secret.length = 32 ∧ f.hmac.length = 32 ∧ f.nonce.length = 32 ∧ f.mac.length = 32

/-- The MAC key and the MAC have 32 bytes. -/
structure Sizes (N : Nip44.Nc) : Prop where
  key : ∀ ck n, (N.macKey ck n).length = 32
  mac : ∀ k m, (N.mac k m).length = 32

/-- A random draw of `n` bytes, if the generator does not fail. -/
def Draws (n : Nat) (r : Option Bytes) : Prop := ∀ b ∈ r, b.length = n

theorem take_over {d b : Bytes} {n : Nat} (h : d.length = b.length) (hb : b.length = n) : (over 0 d b).take n = d := by
  rw [over_all h, ← hb, ← h, List.take_length]

/-- What an encrypted message consists of: nonce, ciphertext and tag. -/
def Public (N : Nip44.Nc) (ck nonce ct : Bytes) : List Bytes :=
  [ct, nonce ++ ct, N.mac (N.macKey ck nonce) (nonce ++ ct), 2 :: (nonce ++ ct ++ N.mac (N.macKey ck nonce) (nonce ++ ct))]

theorem encEnd_keys {f : EncFrame} {freed held : List Bytes} {r : Res Bytes} (h1 : f.secret.length = 32) (h2 : f.hmac.length = 32) :
    (encEnd f freed held r).locals = [zeros 32, zeros 32, f.nonce, f.mac] := by
  simp only [encEnd, EncFrame.dead, wipe_all h1.symm, wipe_all h2.symm, h1, h2]

/-! ## NIP-44, encryption -/

/-- C164, NIP-44 encryption, the keys: whatever fails, at the return the buffers of the private key and of the MAC key hold
zeros. The other two hold what they held before, or the nonce and the tag of the message. -/
theorem C164_nip44_encrypt_keys {N : Nip44.Nc} {B : Nip44.B64} {cfg : Option Config.Config} {x : EncFaults} {junk : Nat → Bytes} {f : EncFrame}
    {nonce : Option Bytes} {sk pk m : Bytes} (hN : Sizes N) (hf : EncFrame.Sized f) (hs : sk.length = 32) (hn : Draws 32 nonce)
    (hc : Nip44.Spec.CfgOK cfg) :
    ∃ n t, (encrypt44 N B cfg x junk f nonce sk pk m).locals = [zeros 32, zeros 32, n, t] ∧ (n = f.nonce ∨ some n = nonce) ∧
      (t = f.mac ∨ ∃ ck p, N.conv sk pk = some ck ∧ Nip44.pad cfg m = .ok p ∧ some n = nonce ∧ t ∈ Public N ck n (N.crypt ck n p)) := by
  obtain ⟨h1, h2, h3, h4⟩ := hf
  have e1 : over 0 sk f.secret = sk := over_all (by omega)
  have e1' : sk.take 32 = sk := by rw [← hs, List.take_length]
  unfold encrypt44
  cases nonce with
  | none => exact ⟨_, _, encEnd_keys (by simp only [e1, hs]) h2, .inl rfl, .inl rfl⟩
  | some nonce =>
    have ln := hn nonce (by simp)
    have en : over 0 nonce f.nonce = nonce := over_all (by omega)
    simp only [e1, en, e1']
    cases hp : Nip44.pad cfg m with
    | ub => exact absurd hp (Own.Defined.pad_defined hc m)
    | err e => exact ⟨_, _, encEnd_keys hs h2, .inr rfl, .inl rfl⟩
    | ok p =>
      simp only
      split
      · exact ⟨_, _, encEnd_keys hs h2, .inr rfl, .inl rfl⟩
      split
      · exact ⟨_, _, encEnd_keys hs h2, .inr rfl, .inl rfl⟩
      split
      · exact ⟨_, _, encEnd_keys hs h2, .inr rfl, .inl rfl⟩
      cases hv : N.conv sk pk with
      | none => exact ⟨_, _, encEnd_keys hs h2, .inr rfl, .inl rfl⟩
      | some ck =>
        have lk := hN.key ck nonce
        have ek : over 0 (N.macKey ck nonce) f.hmac = N.macKey ck nonce := over_all (by omega)
        simp only [ek, encFinish]
        have em : over 0 (N.mac (N.macKey ck nonce) (nonce ++ N.crypt ck nonce p)) f.mac =
            N.mac (N.macKey ck nonce) (nonce ++ N.crypt ck nonce p) := over_all (by rw [hN.mac, h4])
        split
        · exact ⟨_, _, encEnd_keys hs lk, .inr rfl, .inl rfl⟩
        split
        · exact ⟨_, _, encEnd_keys hs lk, .inr rfl, .inl rfl⟩
        have last : ∀ (fr hl : List Bytes) (r : Res Bytes),
            ∃ n t, (encEnd ⟨sk, N.macKey ck nonce, nonce, N.mac (N.macKey ck nonce) (nonce ++ N.crypt ck nonce p)⟩ fr hl r).locals =
                [zeros 32, zeros 32, n, t] ∧ (n = f.nonce ∨ some n = some nonce) ∧
              (t = f.mac ∨ ∃ ck' p', some ck = some ck' ∧ Res.ok p = .ok p' ∧ some n = some nonce ∧ t ∈ Public N ck' n (N.crypt ck' n p')) :=
          fun fr hl r => ⟨_, _, encEnd_keys hs lk, .inr rfl, .inr ⟨ck, p, rfl, rfl, rfl, by simp [Public]⟩⟩
        rw [em]
        split
        · exact last _ _ _
        split
        · exact last _ _ _
        · exact last _ _ _

/-- The blocks that NIP-44 encryption releases. -/
theorem C164_nip44_encrypt_partial {N : Nip44.Nc} {B : Nip44.B64} {cfg : Option Config.Config} {x : EncFaults} {junk : Nat → Bytes} {f : EncFrame}
    {nonce : Option Bytes} {sk pk m : Bytes} (hN : Sizes N) (hf : EncFrame.Sized f) (hs : sk.length = 32) (hn : Draws 32 nonce) :
    ∀ b ∈ (encrypt44 N B cfg x junk f nonce sk pk m).freed,
      Nip44.pad cfg m = .ok b ∨ (∃ n, b = junk n) ∨
        ∃ n ck p, some n = nonce ∧ N.conv sk pk = some ck ∧ Nip44.pad cfg m = .ok p ∧ b ∈ Public N ck n (N.crypt ck n p) := by
  obtain ⟨h1, h2, h3, h4⟩ := hf
  have e1 : over 0 sk f.secret = sk := over_all (by omega)
  have e1' : sk.take 32 = sk := by rw [← hs, List.take_length]
  intro b hb
  unfold encrypt44 at hb
  cases nonce with
  | none => simp [encEnd] at hb
  | some nonce =>
    have ln := hn nonce (by simp)
    have en : over 0 nonce f.nonce = nonce := over_all (by omega)
    simp only [e1, en, e1'] at hb
    cases hp : Nip44.pad cfg m with
    | ub => simp [hp] at hb
    | err e => simp [hp, encEnd] at hb
    | ok p =>
      simp only [hp] at hb
      split at hb
      · simp [encEnd] at hb
      split at hb
      · simp only [encEnd, List.nil_append, List.mem_singleton] at hb; exact .inl (by rw [hb])
      split at hb
      · simp only [encEnd, List.nil_append, List.mem_cons, List.not_mem_nil, or_false] at hb
        exact hb.elim (fun h => .inl (by rw [h])) fun h => .inr (.inl ⟨_, h⟩)
      cases hc : N.conv sk pk with
      | none =>
        simp only [hc, encEnd, List.cons_append, List.nil_append, List.mem_cons, List.not_mem_nil, or_false] at hb
        exact hb.elim (fun h => .inl (by rw [h])) fun h => .inr (.inl ⟨_, h⟩)
      | some ck =>
        have ek : over 0 (N.macKey ck nonce) f.hmac = N.macKey ck nonce := over_all (by rw [hN.key, h2])
        have em : over 0 (N.mac (N.macKey ck nonce) (nonce ++ N.crypt ck nonce p)) f.mac =
            N.mac (N.macKey ck nonce) (nonce ++ N.crypt ck nonce p) := over_all (by rw [hN.mac, h4])
        simp only [hc, ek, encFinish, em] at hb
        have fin : b ∈ p :: Public N ck nonce (N.crypt ck nonce p) → _ := fun h : b ∈ p :: Public N ck nonce (N.crypt ck nonce p) =>
          (List.mem_cons.1 h).elim (fun h => (.inl (by rw [h]) : Res.ok p = .ok b ∨ (∃ n, b = junk n) ∨
            ∃ n ck' p', some n = some nonce ∧ some ck = some ck' ∧ Res.ok p = .ok p' ∧ b ∈ Public N ck' n (N.crypt ck' n p')))
            fun h => .inr (.inr ⟨nonce, ck, p, rfl, rfl, rfl, h⟩)
        apply fin
        simp only [Public]
        split at hb
        · simp only [encEnd, List.cons_append, List.nil_append, List.mem_cons, List.not_mem_nil, or_false] at hb ⊢
          grind
        split at hb
        · simp only [encEnd, List.cons_append, List.nil_append, List.mem_cons, List.not_mem_nil, or_false] at hb ⊢
          grind
        split at hb
        · simp only [encEnd, List.cons_append, List.nil_append, List.mem_cons, List.not_mem_nil, or_false] at hb ⊢
          grind
        split at hb
        · simp only [encEnd, List.cons_append, List.nil_append, List.mem_cons, List.not_mem_nil, or_false] at hb ⊢
          grind
        · simp only [encEnd, List.cons_append, List.nil_append, List.mem_cons, List.not_mem_nil, or_false] at hb ⊢
          grind

/-- The value of NIP-44 encryption without faults is that of the value model. -/
theorem C164_nip44_encrypt_value {N : Nip44.Nc} {B : Nip44.B64} {cfg : Option Config.Config} {junk : Nat → Bytes} {f : EncFrame} {nonce : Option Bytes}
    {sk pk m : Bytes} (hN : Sizes N) (hf : EncFrame.Sized f) (hs : sk.length = 32) (hn : Draws 32 nonce) :
    (encrypt44 N B cfg {} junk f nonce sk pk m).view = Nip44.encrypt N B cfg nonce sk pk m := by
  obtain ⟨h1, h2, h3, h4⟩ := hf
  have e1 : over 0 sk f.secret = sk := over_all (by omega)
  have e1' : sk.take 32 = sk := by rw [← hs, List.take_length]
  cases nonce with
  | none => rfl
  | some nonce =>
    have ln := hn nonce (by simp)
    have en : over 0 nonce f.nonce = nonce := over_all (by omega)
    simp only [encrypt44, Nip44.encrypt, e1, e1', en]
    cases hp : Nip44.pad cfg m with
    | ub => rfl
    | err e => rfl
    | ok p =>
      simp only [Res.bind_ok]
      cases hc : N.conv sk pk with
      | none => rfl
      | some ck =>
        have ek : over 0 (N.macKey ck nonce) f.hmac = N.macKey ck nonce := over_all (by rw [hN.key, h2])
        have em : over 0 (N.mac (N.macKey ck nonce) (nonce ++ N.crypt ck nonce p)) f.mac =
            N.mac (N.macKey ck nonce) (nonce ++ N.crypt ck nonce p) := over_all (by rw [hN.mac, h4])
        simp [encFinish, encEnd, ek, em]

theorem pad_holds {cfg : Option Config.Config} {m b : Bytes} (h : Nip44.pad cfg m = .ok b) : ∃ p q, b = p ++ m ++ q := by
  unfold Nip44.pad at h
  split at h
  · cases h
  split at h
  · cases h
  · simp only [Res.ok.injEq] at h
    exact ⟨[UInt8.ofNat (m.length / 256 % 256), UInt8.ofNat (m.length % 256)],
      List.replicate (Nip44.paddedLen m.length - m.length) 0, by rw [← h]; simp⟩

/-- C164 fails for NIP-44 encryption: after every successful call, the message itself lies in memory that was released
(nip44.c:311 releases the padded text without wiping it). -/
theorem C164_nip44_encrypt_refuted {N : Nip44.Nc} {B : Nip44.B64} {cfg : Option Config.Config} {x : EncFaults} {junk : Nat → Bytes} {f : EncFrame}
    {nonce : Option Bytes} {sk pk m t : Bytes} (hv : (encrypt44 N B cfg x junk f nonce sk pk m).view = .ok t) :
    ∃ b ∈ (encrypt44 N B cfg x junk f nonce sk pk m).freed, ∃ p q, b = p ++ m ++ q := by
  unfold encrypt44 at hv ⊢
  cases nonce with
  | none => simp [encEnd] at hv
  | some nonce =>
    cases hp : Nip44.pad cfg m with
    | ub => simp [hp] at hv
    | err e => simp [hp, encEnd] at hv
    | ok p =>
      simp only [hp] at hv ⊢
      split at hv
      · simp [encEnd] at hv
      next c1 =>
      rw [if_neg c1]
      split at hv
      · simp [encEnd] at hv
      next c2 =>
      rw [if_neg c2]
      split at hv
      · simp [encEnd] at hv
      next c3 =>
      rw [if_neg c3]
      split at hv
      · simp [encEnd] at hv
      · refine ⟨p, ?_, pad_holds hp⟩
        simp only [encFinish]
        split
        · simp [encEnd]
        split
        · simp [encEnd]
        split
        · simp [encEnd]
        split <;> simp [encEnd]

/-! ## NIP-44, decryption -/

theorem decEnd_all {secret : Bytes} {freed held : List Bytes} {r : Res Bytes} (h : secret.length = 32) :
    (decEnd secret freed held r).locals = [zeros 32] ∧ (decEnd secret freed held r).freed = freed ++ held := by
  refine ⟨?_, rfl⟩
  show [wipe 32 secret] = _
  rw [wipe_all h.symm, h]

/-- C164, NIP-44 decryption: the buffer of the private key holds what it held before or zeros. Every block that was released
holds zeros, or the decoded text, or else the tag of the message was right and the block holds the deciphered bytes or the
message. -/
theorem C164_nip44_decrypt_partial {N : Nip44.Nc} {B : Nip44.B64} {cfg : Option Config.Config} {x : DecFaults} {bad secret sk pk text : Bytes}
    (h : secret.length = 32) (hs : sk.length = 32) :
    Clean [] [secret] (decrypt44 N B cfg x bad secret sk pk text).locals ∧
      ∀ b ∈ (decrypt44 N B cfg x bad secret sk pk text).freed,
        b = bad ∨ B.dec text = some b ∨ (∃ n, b = zeros n) ∨
          ∃ p ck d, B.dec text = some p ∧ N.conv sk pk = some ck ∧
            p.drop (p.length - 32) = N.mac (N.macKey ck ((p.drop 1).take 32)) ((p.drop 1).take (p.length - 33)) ∧
            d = N.crypt ck ((p.drop 1).take 32) ((p.drop 33).take (p.length - 65)) ∧ (b = d ∨ Nip44.unpad cfg d = .ok b) := by
  have e1 : over 0 sk secret = sk := over_all (by omega)
  have e1' : sk.take 32 = sk := by rw [← hs, List.take_length]
  have cl : ∀ {fr hl : List Bytes} {r : Res Bytes}, Clean [] [secret] (decEnd sk fr hl r).locals := fun {fr hl r} => by
    rw [(decEnd_all hs).1]; exact ⟨.inr (.inl (by rw [h])), trivial⟩
  unfold decrypt44
  split
  · exact ⟨Clean.refl _, by simp⟩
  next c0 =>
  cases hd : B.dec text with
  | none => exact ⟨Clean.refl _, by intro b hb; exact .inl (by simpa using hb)⟩
  | some p =>
    simp only [hd, open44, e1, e1']
    split
    · exact ⟨Clean.refl _, by intro b hb; exact .inr (.inl (by rw [List.mem_singleton.1 hb]))⟩
    next c1 =>
    split
    · exact ⟨Clean.refl _, by intro b hb; exact .inr (.inl (by rw [List.mem_singleton.1 hb]))⟩
    next c2 =>
    split
    · exact ⟨cl, by intro b hb; exact .inr (.inl (by rw [(decEnd_all hs).2] at hb; rw [List.mem_singleton.1 hb]))⟩
    next c3 =>
    have wz : ∀ (i : Bytes), wipe i.length i = zeros i.length := fun i => wipe_all rfl
    cases hc : N.conv sk pk with
    | none =>
      refine ⟨cl, ?_⟩
      intro b hb
      rw [(decEnd_all hs).2, wz] at hb
      simp only [List.cons_append, List.nil_append, List.mem_cons, List.not_mem_nil, or_false] at hb
      exact hb.elim (fun h => .inr (.inr (.inl ⟨_, h⟩))) fun h => .inr (.inl (by rw [h]))
    | some ck =>
      simp only [hc]
      split
      · refine ⟨cl, ?_⟩
        intro b hb
        rw [(decEnd_all hs).2, wz] at hb
        simp only [List.cons_append, List.nil_append, List.mem_cons, List.not_mem_nil, or_false] at hb
        exact hb.elim (fun h => .inr (.inr (.inl ⟨_, h⟩))) fun h => .inr (.inl (by rw [h]))
      next c4 =>
      split
      · refine ⟨cl, ?_⟩
        intro b hb
        rw [(decEnd_all hs).2, wz] at hb
        simp only [List.cons_append, List.nil_append, List.mem_cons, List.not_mem_nil, or_false] at hb
        exact hb.elim (fun h => .inr (.inr (.inl ⟨_, h⟩))) fun h => .inr (.inl (by rw [h]))
      next c5 =>
      split
      · refine ⟨cl, ?_⟩
        intro b hb
        rw [(decEnd_all hs).2, wz] at hb
        simp only [List.cons_append, List.nil_append, List.mem_cons, List.not_mem_nil, or_false] at hb
        exact hb.elim (fun h => .inr (.inr (.inl ⟨_, h⟩))) fun h => h.elim (fun h => .inr (.inl (by rw [h]))) fun h => .inr (.inr (.inl ⟨_, h⟩))
      next c6 =>
      have hm : p.drop (p.length - 32) = N.mac (N.macKey ck ((p.drop 1).take 32)) ((p.drop 1).take (p.length - 33)) := by
        rw [Decidable.not_not.1 c4]
        congr 1
        have : p.length - 33 = 32 + (p.length - 65) := by omega
        rw [this, List.take_add, List.drop_drop]
      cases hup : Nip44.unpad cfg (N.crypt ck ((p.drop 1).take 32) ((p.drop 33).take (p.length - 65))) with
      | ub => exact absurd hup (Own.Defined.unpad_defined _ _)
      | err e =>
        refine ⟨cl, ?_⟩
        intro b hb
        rw [(decEnd_all hs).2, wz] at hb
        simp only [List.cons_append, List.nil_append, List.mem_cons, List.not_mem_nil, or_false] at hb
        rcases hb with h | h | h
        · exact .inr (.inr (.inl ⟨_, h⟩))
        · exact .inr (.inl (by rw [h]))
        · exact .inr (.inr (.inr ⟨p, ck, _, rfl, rfl, hm, rfl, .inl h⟩))
      | ok m =>
        have fin : ∀ (b : Bytes), (b = zeros ((p.drop 1).take 32 ++ (p.drop 33).take (p.length - 65)).length ∨ b = p ∨
            b = N.crypt ck ((p.drop 1).take 32) ((p.drop 33).take (p.length - 65)) ∨ b = m) →
            b = bad ∨ some p = some b ∨ (∃ n, b = zeros n) ∨
              ∃ p' ck' d, some p = some p' ∧ some ck = some ck' ∧
                p'.drop (p'.length - 32) = N.mac (N.macKey ck' ((p'.drop 1).take 32)) ((p'.drop 1).take (p'.length - 33)) ∧
                d = N.crypt ck' ((p'.drop 1).take 32) ((p'.drop 33).take (p'.length - 65)) ∧ (b = d ∨ Nip44.unpad cfg d = .ok b) := by
          intro b hb
          rcases hb with h | h | h | h
          · exact .inr (.inr (.inl ⟨_, h⟩))
          · exact .inr (.inl (by rw [h]))
          · exact .inr (.inr (.inr ⟨p, ck, _, rfl, rfl, hm, rfl, .inl h⟩))
          · exact .inr (.inr (.inr ⟨p, ck, _, rfl, rfl, hm, rfl, .inr (by rw [hup, h])⟩))
        simp only
        split
        · refine ⟨cl, ?_⟩
          intro b hb
          rw [(decEnd_all hs).2, wz] at hb
          simp only [List.cons_append, List.nil_append, List.mem_cons, List.not_mem_nil, or_false] at hb
          exact fin b (hb.imp_right fun h => h.imp_right .inl)
        split
        · refine ⟨cl, ?_⟩
          intro b hb
          rw [(decEnd_all hs).2, wz] at hb
          simp only [List.cons_append, List.nil_append, List.mem_cons, List.not_mem_nil, or_false] at hb
          exact fin b hb
        · refine ⟨cl, ?_⟩
          intro b hb
          rw [(decEnd_all hs).2, wz] at hb
          simp only [List.cons_append, List.nil_append, List.mem_cons, List.not_mem_nil, or_false] at hb
          exact fin b hb

/-- The value of NIP-44 decryption without faults is that of the value model. -/
theorem C164_nip44_decrypt_value {N : Nip44.Nc} {B : Nip44.B64} {cfg : Option Config.Config} {bad secret sk pk text : Bytes} (h : secret.length = 32)
    (hs : sk.length = 32) : (decrypt44 N B cfg {} bad secret sk pk text).view = Nip44.decrypt N B cfg sk pk text := by
  have e1 : over 0 sk secret = sk := over_all (by omega)
  have e1' : sk.take 32 = sk := by rw [← hs, List.take_length]
  unfold decrypt44 Nip44.decrypt
  split
  · rfl
  cases hd : B.dec text with
  | none => rfl
  | some p =>
    simp only [open44, Nip44.decryptPayload, e1, e1']
    split
    · rfl
    split
    · rfl
    cases hc : N.conv sk pk with
    | none => rfl
    | some ck =>
      simp only [Bool.false_eq_true, if_false]
      split
      · rfl
      · cases Nip44.unpad cfg (N.crypt ck ((p.drop 1).take 32) ((p.drop 33).take (p.length - 65))) <;> rfl

/-- C164 fails for NIP-44 decryption: after every successful call, the message lies in memory that was released (nip44.c:481-482
release the deciphered and the unpadded text without wiping them). -/
theorem C164_nip44_decrypt_refuted {N : Nip44.Nc} {B : Nip44.B64} {cfg : Option Config.Config} {x : DecFaults} {bad secret sk pk text m : Bytes}
    (hv : (decrypt44 N B cfg x bad secret sk pk text).view = .ok m) : m ∈ (decrypt44 N B cfg x bad secret sk pk text).freed := by
  unfold decrypt44 at hv ⊢
  split at hv
  · cases hv
  next c0 =>
  rw [if_neg c0]
  cases hd : B.dec text with
  | none => simp [hd] at hv
  | some p =>
    simp only [hd, open44] at hv ⊢
    split at hv
    · cases hv
    next c1 =>
    rw [if_neg c1]
    split at hv
    · cases hv
    next c2 =>
    rw [if_neg c2]
    split at hv
    · simp [decEnd] at hv
    next c3 =>
    rw [if_neg c3]
    cases hc : N.conv ((over 0 sk secret).take 32) pk with
    | none => simp [hc, decEnd] at hv
    | some ck =>
      simp only [hc] at hv ⊢
      split at hv
      · simp [decEnd] at hv
      next c4 =>
      rw [if_neg c4]
      split at hv
      · simp [decEnd] at hv
      next c5 =>
      rw [if_neg c5]
      split at hv
      · simp [decEnd] at hv
      next c6 =>
      rw [if_neg c6]
      cases hup : Nip44.unpad cfg (N.crypt ck ((p.drop 1).take 32) ((p.drop 33).take (p.length - 65))) with
      | ub => rw [hup] at hv; cases hv
      | err e => rw [hup] at hv; cases hv
      | ok m' =>
        simp only [hup] at hv ⊢
        split at hv
        · simp [decEnd] at hv
        next c7 =>
        rw [if_neg c7]
        split at hv
        · simp [decEnd] at hv
        next c8 =>
        rw [if_neg c8]
        simp only [decEnd, Res.ok.injEq] at hv
        simp [decEnd, hv]

/-! ## NIP-04 -/

theorem enc4End_all {secret iv : Bytes} {held : List Bytes} {r : Res Bytes} (h : secret.length = 32) :
    (enc4End secret iv held r).locals = [zeros 32, iv] ∧ (enc4End secret iv held r).freed = held := by
  refine ⟨?_, rfl⟩
  show [wipe 32 secret, iv] = _
  rw [wipe_all h.symm, h]

/-- C164, NIP-04 encryption: whatever fails, the shared secret is wiped, and every block that was released holds the
ciphertext or a part of the text that is returned. -/
theorem C164_nip04_encrypt {C : Nip04.Cipher} {B : Nip04.Codec} {x : Enc4Faults} {part secret iv : Bytes} {shared rand : Option Bytes} {m : Bytes}
    (hs : secret.length = 32) (hi : iv.length = 16) (hk : Draws 32 shared) (hr : Draws 16 rand)
    (hu : (encrypt04 C B x part secret iv shared rand m).view ≠ .ub) :
    Clean rand.toList [secret, iv] (encrypt04 C B x part secret iv shared rand m).locals ∧
      ∀ b ∈ (encrypt04 C B x part secret iv shared rand m).freed, b = part ∨
        ∃ key r, shared = some key ∧ rand = some r ∧ b ∈ [Nip04.cbc C key r (m.take (m.length % 2 ^ 32)), B.enc (Nip04.cbc C key r (m.take (m.length % 2 ^ 32))), B.enc r] := by
  unfold encrypt04 at hu ⊢
  cases shared with
  | none => exact ⟨Clean.refl _, by simp⟩
  | some key =>
    have lk := hk key (by simp)
    have ek : over 0 key secret = key := over_all (by omega)
    have ek' : key.take 32 = key := by rw [← lk, List.take_length]
    cases rand with
    | none =>
      simp only [ek]
      rw [(enc4End_all lk).1, (enc4End_all lk).2]
      exact ⟨⟨.inr (.inl (by rw [hs])), .inl rfl, trivial⟩, by simp⟩
    | some r =>
      have lr := hr r (by simp)
      have er : over 0 r iv = r := over_all (by omega)
      simp only [ek, er, ek'] at hu ⊢
      have cl : ∀ {hl : List Bytes} {q : Res Bytes}, Clean (some r).toList [secret, iv] (enc4End key r hl q).locals := fun {hl q} => by
        rw [(enc4End_all lk).1]; exact ⟨.inr (.inl (by rw [hs])), .inr (.inr (by simp)), trivial⟩
      have fin : ∀ {b : Bytes}, b ∈ [Nip04.cbc C key r (m.take (m.length % 2 ^ 32)), B.enc (Nip04.cbc C key r (m.take (m.length % 2 ^ 32))), B.enc r] → b = part ∨
          ∃ key' r', some key = some key' ∧ some r = some r' ∧ b ∈ [Nip04.cbc C key' r' (m.take (m.length % 2 ^ 32)), B.enc (Nip04.cbc C key' r' (m.take (m.length % 2 ^ 32))), B.enc r'] :=
        fun h => .inr ⟨key, r, rfl, rfl, h⟩
      split
      · exact ⟨cl, by simp [enc4End]⟩
      next c1 =>
      split
      · exact ⟨cl, by simp [enc4End]⟩
      next c2 =>
      split
      next c3 => rw [if_neg c1, if_neg c2, if_pos c3] at hu; exact absurd rfl hu
      split
      · exact ⟨cl, by simp [enc4End]⟩
      split
      · exact ⟨cl, by intro b hb; exact .inl (List.mem_singleton.1 hb)⟩
      split
      · exact ⟨cl, fun b hb => fin (by simp only [enc4End, List.mem_cons, List.not_mem_nil, or_false] at hb ⊢; grind)⟩
      split
      · exact ⟨cl, fun b hb => fin (by simp only [enc4End, List.mem_cons, List.not_mem_nil, or_false] at hb ⊢; grind)⟩
      split
      · exact ⟨cl, fun b hb => fin (by simp only [enc4End, List.mem_cons, List.not_mem_nil, or_false] at hb ⊢; grind)⟩
      · exact ⟨cl, fun b hb => fin (by simp only [enc4End, List.mem_cons, List.not_mem_nil, or_false] at hb ⊢; grind)⟩

/-- The value of NIP-04 encryption without faults is that of the value model. -/
theorem C164_nip04_encrypt_value {C : Nip04.Cipher} {B : Nip04.Codec} {part secret iv : Bytes} {shared rand : Option Bytes} {m : Bytes}
    (hs : secret.length = 32) (hi : iv.length = 16) (hk : Draws 32 shared) (hr : Draws 16 rand) :
    (encrypt04 C B {} part secret iv shared rand m).view = Nip04.encrypt C B shared rand m := by
  unfold encrypt04 Nip04.encrypt
  cases shared with
  | none => rfl
  | some key =>
    have lk := hk key (by simp)
    have ek : over 0 key secret = key := over_all (by omega)
    have ek' : key.take 32 = key := by rw [← lk, List.take_length]
    cases rand with
    | none => rfl
    | some r =>
      have er : over 0 r iv = r := over_all (by rw [hr r (by simp), hi])
      simp only [ek, er, ek', Bool.false_eq_true, if_false]
      split <;> rfl

theorem unchain_length (g : Bytes → Bytes) : ∀ (bs : List Bytes) (iv : Bytes), iv.length = 16 → Nip04.Props.Full bs →
    (Nip04.unchain g iv bs).length ≤ bs.flatten.length
  | [], _, _, _ => by simp [Nip04.unchain]
  | b :: bs, iv, hi, hf => by
      have hb : b.length = 16 := hf b (by simp)
      have ih := unchain_length g bs b hb fun y hy => hf y (by simp [hy])
      simp only [Nip04.unchain, Nip04.xor, List.length_append, List.length_zipWith, List.flatten_cons]
      omega

theorem uncbc_length {C : Nip04.Cipher} {key iv c m : Bytes} (hi : iv.length = 16) (h : Nip04.uncbc C key iv c = some m) : m.length ≤ c.length := by
  unfold Nip04.uncbc at h
  split at h
  · cases h
  next hc =>
  have hl := unchain_length (C.dec key) (Nip04.blocks c.length c) iv hi (Nip04.Props.blocks_full _ _ (Nat.le_refl _) (by omega))
  rw [Nip04.Props.blocks_flatten _ _ (Nat.le_refl _)] at hl
  unfold Nip04.unpad at h
  simp only at h
  split at h
  · cases h
  · simp only [Option.some.injEq] at h
    rw [← h, List.length_take]; omega

theorem dec4End_all {secret : Bytes} {held : List Bytes} {block : Option (Bytes × Nat)} {r : Res Bytes} (h : secret.length = 32)
    (hb : ∀ b n, block = some (b, n) → b.length = n) :
    (dec4End secret held block r).locals = [zeros 32] ∧
      ∀ b ∈ (dec4End secret held block r).freed, b ∈ held ∨ ∃ n, b = zeros n := by
  have w : wipe 32 secret = zeros 32 := by rw [wipe_all h.symm, h]
  cases block with
  | none => exact ⟨by simp only [dec4End, w], fun b hb => .inl hb⟩
  | some p =>
    obtain ⟨b, n⟩ := p
    have e := wipe_all (hb b n rfl).symm
    refine ⟨by simp only [dec4End, w], fun b' hb' => ?_⟩
    simp only [dec4End, List.mem_append, List.mem_singleton] at hb'
    exact hb'.imp_right fun h => ⟨_, h.trans e⟩

/-- The bytes of the block for the deciphered text, for a content that is decoded and for one that is not. -/
def blockSize (content : Option Bytes) : Nat := content.elim 15 fun c => c.length + 16

theorem open04_all {C : Nip04.Cipher} {x : Dec4Faults} {block key iv : Bytes} {held : List Bytes} {content : Option Bytes} {n : Nat}
    (hk : key.length = 32) (hi : iv.length = 16) (hn : n = content.elim (2 ^ 64 - 1) List.length) (hl : blockSize content < 2 ^ 64)
    (hb : block.length = blockSize content) :
    (open04 C x block key held content n iv).locals = [zeros 32] ∧
      ∀ b ∈ (open04 C x block key held content n iv).freed, b ∈ held ∨ ∃ k, b = zeros k := by
  have no : ∀ b k, (none : Option (Bytes × Nat)) = some (b, k) → b.length = k := fun _ _ h => by cases h
  unfold open04
  split
  · exact dec4End_all hk no
  split
  · exact dec4End_all hk no
  split
  · exact dec4End_all hk no
  cases content with
  | none =>
    refine dec4End_all hk fun b k h => ?_
    cases h
    rw [hb, hn]; rfl
  | some c =>
    simp only [Option.elim_some] at hn
    simp only [blockSize, Option.elim_some] at hb hl
    have hm : (n + 16) % 2 ^ 64 = c.length + 16 := by rw [hn, Nat.mod_eq_of_lt hl]
    simp only [hm]
    cases hc : Nip04.uncbc C (key.take 32) iv c with
    | none =>
      refine dec4End_all hk fun b k h => ?_
      cases h
      exact hb
    | some m =>
      have lm := uncbc_length hi hc
      have lo : (over 0 m block).length = c.length + 16 := by rw [over_length (by omega), hb]
      simp only
      split
      · exact dec4End_all hk fun b k h => by cases h; exact lo
      · exact dec4End_all hk fun b k h => by cases h; exact lo

/-- C164, NIP-04 decryption: whatever fails, the shared secret is wiped, and so is the block that held the deciphered text.
Every other block that was released holds the encrypted text or what was decoded of it. -/
theorem C164_nip04_decrypt {C : Nip04.Cipher} {B : Nip04.Codec} {zero : Bool} {x : Dec4Faults} {block bad1 bad2 secret : Bytes} {shared : Option Bytes}
    {text : Bytes} (hs : secret.length = 32) (hk : Draws 32 shared)
    (hb : ∀ content iv, Nip04.cut text = some (content, iv) →
      (∀ c, Nip04.decode B zero content = .data c → block.length = c.length + 16 ∧ block.length < 2 ^ 64) ∧
        (Nip04.decode B zero content = .huge → block.length = 15))
    (hu : (decrypt04 C B zero x block bad1 bad2 secret shared text).view ≠ .ub) :
    Clean [] [secret] (decrypt04 C B zero x block bad1 bad2 secret shared text).locals ∧
      ∀ b ∈ (decrypt04 C B zero x block bad1 bad2 secret shared text).freed, b ∈ [text, bad1, bad2] ∨ (∃ n, b = zeros n) ∨
        ∃ content iv, Nip04.cut text = some (content, iv) ∧ (Nip04.decode B zero content = .data b ∨ Nip04.decode B zero iv = .data b) := by
  have no : ∀ b k, (none : Option (Bytes × Nat)) = some (b, k) → b.length = k := fun _ _ h => by cases h
  have cl : ∀ {l : List Bytes}, l = [zeros 32] → Clean [] [secret] l := fun h => by
    rw [h]; exact ⟨.inr (.inl (by rw [hs])), trivial⟩
  unfold decrypt04 at hu ⊢
  split
  · exact ⟨Clean.refl _, by simp⟩
  next c0 =>
  rw [if_neg c0] at hu
  cases hc : Nip04.cut text with
  | none => exact ⟨Clean.refl _, fun b hb => .inl (by simp only [List.mem_singleton] at hb; simp [hb])⟩
  | some p =>
    obtain ⟨content, ivText⟩ := p
    obtain ⟨hb1, hb2⟩ := hb content ivText hc
    simp only [hc] at hu ⊢
    have key : ∀ {data : Bytes} {bytes : Option Bytes} {n : Nat}, (data = bad1 ∨ Nip04.decode B zero content = .data data) →
        n = bytes.elim (2 ^ 64 - 1) List.length → blockSize bytes < 2 ^ 64 → block.length = blockSize bytes →
        let r := vector04 C B zero x block bad2 secret shared text ivText data bytes n;
        r.view ≠ .ub → Clean [] [secret] r.locals ∧ ∀ b ∈ r.freed, b ∈ [text, bad1, bad2] ∨ (∃ n, b = zeros n) ∨
          ∃ content' iv, some (content, ivText) = some (content', iv) ∧
            (Nip04.decode B zero content' = .data b ∨ Nip04.decode B zero iv = .data b) := by
      intro data bytes n hd hn hl hbl r hr
      have dat : ∀ {b : Bytes}, b = data → b ∈ [text, bad1, bad2] ∨ (∃ n, b = zeros n) ∨
          ∃ content' iv, some (content, ivText) = some (content', iv) ∧
            (Nip04.decode B zero content' = .data b ∨ Nip04.decode B zero iv = .data b) := fun h =>
        hd.elim (fun e => .inl (by simp [h, e])) fun e => .inr (.inr ⟨content, ivText, rfl, .inl (by rw [e, h])⟩)
      subst r
      unfold vector04 at hr ⊢
      cases hv : Nip04.decode B zero ivText with
      | released => rw [hv] at hr; exact absurd rfl hr
      | null =>
        obtain ⟨e1, e2⟩ := dec4End_all (secret := secret) (held := [text, data]) (block := none) (r := .err .invalidParam) hs no
        refine ⟨cl e1, fun b hb => ?_⟩
        rcases e2 b hb with h | h
        · simp only [List.mem_cons, List.not_mem_nil, or_false] at h
          exact h.elim (fun h => .inl (by simp [h])) dat
        · exact .inr (.inl h)
      | huge =>
        obtain ⟨e1, e2⟩ := dec4End_all (secret := secret) (held := [text, data, bad2]) (block := none) (r := .err .invalidParam) hs no
        refine ⟨cl e1, fun b hb => ?_⟩
        rcases e2 b hb with h | h
        · simp only [List.mem_cons, List.not_mem_nil, or_false] at h
          rcases h with h | h | h
          · exact .inl (by simp [h])
          · exact dat h
          · exact .inl (by simp [h])
        · exact .inr (.inl h)
      | data iv =>
        have fin : ∀ {r : Call (Res Bytes)}, (r.locals = [zeros 32] ∧ ∀ b ∈ r.freed, b ∈ [text, data, iv] ∨ ∃ n, b = zeros n) →
            Clean [] [secret] r.locals ∧ ∀ b ∈ r.freed, b ∈ [text, bad1, bad2] ∨ (∃ n, b = zeros n) ∨
              ∃ content' iv, some (content, ivText) = some (content', iv) ∧
                (Nip04.decode B zero content' = .data b ∨ Nip04.decode B zero iv = .data b) := by
          intro r h
          refine ⟨cl h.1, fun b hb => ?_⟩
          rcases h.2 b hb with h | h
          · simp only [List.mem_cons, List.not_mem_nil, or_false] at h
            rcases h with h | h | h
            · exact .inl (by simp [h])
            · exact dat h
            · exact .inr (.inr ⟨content, ivText, rfl, .inr (by rw [hv, h])⟩)
          · exact .inr (.inl h)
        simp only
        split
        · exact fin (dec4End_all hs no)
        next hi =>
        cases shared with
        | none => exact fin (dec4End_all hs no)
        | some k =>
          have lk := hk k (by simp)
          have ek : over 0 k secret = k := over_all (by omega)
          simp only [ek]
          exact fin (open04_all lk (Decidable.not_not.1 hi) hn hl hbl)
    cases hd : Nip04.decode B zero content with
    | released => rw [hd] at hu; exact absurd rfl hu
    | null =>
      obtain ⟨e1, e2⟩ := dec4End_all (secret := secret) (held := [text]) (block := none) (r := .err .invalidParam) hs no
      refine ⟨cl e1, fun b hb => ?_⟩
      rcases e2 b hb with h | h
      · exact .inl (by simp only [List.mem_singleton] at h; simp [h])
      · exact .inr (.inl h)
    | huge =>
      rw [hd] at hu key
      exact key (bytes := none) (.inl rfl) rfl (by decide) (hb2 hd) hu
    | data c =>
      rw [hd] at hu key
      obtain ⟨g1, g2⟩ := hb1 c hd
      exact key (bytes := some c) (.inr rfl) rfl (by simp only [blockSize, Option.elim_some]; omega) g1 hu

/-- The value of NIP-04 decryption without faults is that of the value model. -/
theorem C164_nip04_decrypt_value {C : Nip04.Cipher} {B : Nip04.Codec} {zero : Bool} {block bad1 bad2 secret : Bytes} {shared : Option Bytes} {text : Bytes}
    (hs : secret.length = 32) (hk : Draws 32 shared) :
    (decrypt04 C B zero {} block bad1 bad2 secret shared text).view = Nip04.decrypt C B zero shared text := by
  unfold decrypt04 Nip04.decrypt
  simp only [Bool.false_eq_true, if_false]
  cases hc : Nip04.cut text with
  | none => rfl
  | some p =>
    obtain ⟨content, ivText⟩ := p
    simp only
    have key : ∀ (k : Bytes), shared = some k → (over 0 k secret).take 32 = k := fun k h =>
      take_over (by rw [hk k (by simp [h]), hs]) hs
    cases hd : Nip04.decode B zero content with
    | released => rfl
    | null => rfl
    | huge =>
      simp only [vector04]
      cases hv : Nip04.decode B zero ivText with
      | data iv =>
        simp only
        split
        · rfl
        · cases shared <;> rfl
      | _ => rfl
    | data c =>
      simp only [vector04]
      cases hv : Nip04.decode B zero ivText with
      | data iv =>
        simp only
        split
        · rfl
        · cases shared with
          | none => rfl
          | some k =>
            simp only [open04, key k rfl, Bool.false_eq_true, if_false]
            cases Nip04.uncbc C k iv c <;> rfl
      | _ => rfl

/-! ## Concrete cases -/

/-- Key agreement by sum, a cipher that adds a byte, MACs of 32 equal bytes. -/
def toyNc : Nip44.Nc where
  conv a b := if a.headD 0 = 0 then none else some [a.headD 0 + b.headD 0]
  macKey ck n := List.replicate 32 (ck.headD 0 + n.headD 0)
  crypt ck _ m := m.map (· ^^^ ck.headD 0)
  mac k m := List.replicate 32 (k.headD 0 + m.sum)

theorem toyNc_sizes : Sizes toyNc := ⟨fun _ _ => List.length_replicate, fun _ _ => List.length_replicate⟩

def toyFrame : EncFrame := ⟨List.replicate 32 7, List.replicate 32 7, List.replicate 32 7, List.replicate 32 7⟩

theorem toyFrame_sized : EncFrame.Sized toyFrame :=
  ⟨List.length_replicate, List.length_replicate, List.length_replicate, List.length_replicate⟩

def toySk : Bytes := List.replicate 32 5

/-- The setting of the theorems on encryption, with a fault of the MAC. -/
example : ∃ n t, (encrypt44 toyNc Nip44.Props.toyB64 none { mac := true } (fun n => List.replicate n 1) toyFrame (some (List.replicate 32 9)) toySk [1]
    c!"hello").locals = [zeros 32, zeros 32, n, t] := by
  obtain ⟨n, t, h, _⟩ := C164_nip44_encrypt_keys (N := toyNc) (B := Nip44.Props.toyB64) (cfg := none) (x := { mac := true })
    (junk := fun n => List.replicate n 1) (f := toyFrame) (nonce := some (List.replicate 32 9)) (sk := toySk) (pk := [1]) (m := c!"hello")
    toyNc_sizes toyFrame_sized List.length_replicate (by intro b h; cases h; exact List.length_replicate) (by intro c h; cases h)
  exact ⟨n, t, h⟩

/-- A message that is encrypted and decrypted: both calls leave it in released memory. -/
example :
    (match (encrypt44 toyNc Nip44.Props.toyB64 none {} (fun n => List.replicate n 1) toyFrame (some (List.replicate 32 9)) toySk [1] c!"hello") with
      | ⟨.ok t, l, fr⟩ =>
          let r := decrypt44 toyNc Nip44.Props.toyB64 none {} [] (List.replicate 32 7) toySk [1] t;
          decide (l.take 2 = [zeros 32, zeros 32] ∧ (∃ b ∈ fr, (b.drop 2).take 5 = c!"hello") ∧ r.view = .ok c!"hello" ∧
            r.locals = [zeros 32] ∧ c!"hello" ∈ r.freed)
      | _ => false) = true := by decide +kernel

/-- NIP-04: the decryption leaves the copy of the text, the decoded data and vector, and zeros. -/
example :
    (match (encrypt04 Nip04.Props.toy Nip04.Props.std {} [] (List.replicate 32 7) (List.replicate 16 7) (some toySk) (some (List.replicate 16 9)) c!"hello") with
      | ⟨.ok t, l, _⟩ =>
          let r := decrypt04 Nip04.Props.toy Nip04.Props.std true {} (List.replicate 32 7) [] [] (List.replicate 32 7) (some toySk) t;
          decide (l = [zeros 32, List.replicate 16 9] ∧ r.view = .ok c!"hello" ∧ r.locals = [zeros 32] ∧ r.freed.length = 4 ∧
            r.freed.getLast? = some (zeros 32))
      | _ => false) = true := by decide +kernel

end Nostr.Wipe.Crypt.Props
