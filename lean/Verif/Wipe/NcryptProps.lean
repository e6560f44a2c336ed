import Verif.Wipe.Ncrypt
import Verif.Wipe.Spec
import Verif.Nip49.Lemmas

/-! # Property theorems: what the encryption of private keys with a password leaves in memory (C163) -/

namespace Nostr.Wipe.Ncrypt.Props
open Nostr Nostr.Wipe Nostr.Wipe.Ncrypt Nostr.Wipe.Spec

/-! ## Sizes -/

/-- The sizes of the buffers, in bytes. -/
def XFrame.Sized (f : XFrame) : Prop := f.state.length = 64 ∧ f.subkey.length = 32 ∧ f.nonce12.length = 12

def EncFrame.Sized (f : EncFrame) : Prop :=
  f.salt.length = 16 ∧ f.nonce.length = 24 ∧ f.key.length = 32 ∧ f.ct.length = 32 ∧ f.mac.length = 16 ∧ f.payload.length = 91 ∧
    XFrame.Sized f.x

def DecFrame.Sized (f : DecFrame) : Prop := f.payload.length = 91 ∧ f.key.length = 32 ∧ XFrame.Sized f.x

/-- What the library returns has the sizes it was asked for. -/
structure Sizes (L : Nip49.Lib) : Prop where
  key : ∀ pw salt n r p k, L.scrypt pw salt n r p = some k → k.length = 32
  sl : ∀ k n a m c t, L.sl k n a m = some (c, t) → c.length = m.length ∧ t.length = 16
  op : ∀ k n a c t m, L.open_ k n a c t = some m → m.length = c.length

/-- A random draw of `n` bytes, if the generator does not fail. -/
def Draws (n : Nat) (r : Option Bytes) : Prop := ∀ b ∈ r, b.length = n

/-! ## Buffers -/

theorem over_next {off : Nat} {p d rest : Bytes} (h : p.length = off) : over off d (p ++ rest) = p ++ d ++ rest.drop d.length := by
  subst h
  simp [over, List.drop_append]

theorem over_zero {d b : Bytes} : over 0 d b = d ++ b.drop d.length := by simp [over]

theorem qr_length (s : List UInt32) (i j k l : Nat) : (Nip49.qr s i j k l).length = s.length := by
  simp [Nip49.qr]

theorem rounds_length : ∀ (n : Nat) (s : List UInt32), (Nip49.rounds n s).length = s.length
  | 0, _ => rfl
  | n + 1, s => by rw [Nip49.rounds, rounds_length n]; simp [Nip49.doubleRound, qr_length]

theorem words_length : ∀ (s : List UInt32), (s.flatMap Nip49.store32).length = 4 * s.length
  | [] => rfl
  | w :: s => by rw [List.flatMap_cons, List.length_append, words_length s, List.length_cons]; simp [Nip49.store32]; omega

theorem state_length (key nonce : Bytes) : (stateOf key nonce).length = 64 := by
  rw [stateOf, words_length, rounds_length]; simp

theorem part_length (f : Nat → UInt32) (n : Nat) : ((List.range n).flatMap fun i => Nip49.store32 (f i)).length = 4 * n := by
  have := words_length ((List.range n).map f)
  rwa [List.flatMap_map, List.length_map, List.length_range] at this

theorem subkey_length (key nonce : Bytes) : (Nip49.hchacha20 key nonce).length = 32 := by
  rw [Nip49.hchacha20, List.length_append, part_length, part_length]

theorem hchacha_left {state key nonce : Bytes} (h : state.length = 64) : (hchacha20 state key nonce).left = [List.replicate 64 0] := by
  simp only [hchacha20]
  rw [wipe_over (by rw [state_length, h]; omega) h.symm, h]

theorem nonce_buffer {b n : Bytes} (hb : b.length = 12) (hn : n.length = 24) :
    over 4 ((n.drop 16).take 8) (over 0 (List.replicate 4 0) b) = Nip49.nonce12 n := by
  rw [over_zero, over_next (by rfl), Nip49.nonce12]
  have : ((n.drop 16).take 8).length = 8 := by rw [List.length_take, List.length_drop]; omega
  have z : ((b.drop (List.replicate 4 (0 : UInt8)).length).drop 8) = [] := List.drop_eq_nil_of_le (by rw [List.length_drop, List.length_replicate]; omega)
  rw [this, z, List.append_nil]

theorem nonce12_length {n : Bytes} (hn : n.length = 24) : (Nip49.nonce12 n).length = 12 := by
  rw [Nip49.nonce12, List.length_append, List.length_replicate, List.length_take, List.length_drop]; omega

/-- The three buffers of the cipher are zero. -/
def zeroX : List Bytes := [List.replicate 32 0, List.replicate 12 0, List.replicate 64 0]

theorem xEncrypt_all {L : Nip49.Lib} {f : XFrame} {key n aad pt : Bytes} (hf : XFrame.Sized f) (hn : n.length = 24) :
    (xEncrypt L f key n aad pt).view = Nip49.xEncrypt L key n aad pt ∧ (xEncrypt L f key n aad pt).left = zeroX := by
  obtain ⟨h1, h2, h3⟩ := hf
  have a : over 0 (hchacha20 f.state key n).view f.subkey = Nip49.hchacha20 key n := over_all (by
    rw [h2]; exact subkey_length key n)
  simp only [xEncrypt, a, nonce_buffer h3 hn, hchacha_left h1, wipe_all (subkey_length key n).symm, wipe_all (nonce12_length hn).symm,
    subkey_length, nonce12_length hn]
  exact ⟨rfl, rfl⟩

theorem xDecrypt_all {L : Nip49.Lib} {f : XFrame} {key n aad ct tag : Bytes} (hf : XFrame.Sized f) (hn : n.length = 24) :
    (xDecrypt L f key n aad ct tag).view = Nip49.xDecrypt L key n aad ct tag ∧ (xDecrypt L f key n aad ct tag).left = zeroX := by
  obtain ⟨h1, h2, h3⟩ := hf
  have a : over 0 (hchacha20 f.state key n).view f.subkey = Nip49.hchacha20 key n := over_all (by
    rw [h2]; exact subkey_length key n)
  simp only [xDecrypt, a, nonce_buffer h3 hn, hchacha_left h1, wipe_all (subkey_length key n).symm, wipe_all (nonce12_length hn).symm,
    subkey_length, nonce12_length hn]
  exact ⟨rfl, rfl⟩

theorem zeroX_clean {pub : List Bytes} {f : XFrame} (hf : XFrame.Sized f) : Clean pub f.dead zeroX := by
  obtain ⟨h1, h2, h3⟩ := hf
  exact ⟨.inr (.inl (by rw [h2])), .inr (.inl (by rw [h3])), .inr (.inl (by rw [h1])), trivial⟩

/-! ## C163 -/

/-- What `encEnd` leaves, for buffers of the right sizes. -/
theorem encEnd_clean {f g : EncFrame} {x : List Bytes} {r : Res Bytes} (hf : EncFrame.Sized f) (hg : EncFrame.Sized g)
    (hx : Clean [] f.x.dead x) : Clean [] f.dead (encEnd g x r).left := by
  obtain ⟨h1, h2, h3, h4, h5, h6, _⟩ := hf
  obtain ⟨g1, g2, g3, g4, g5, g6, _⟩ := hg
  have e : (encEnd g x r).left = [wipe 16 g.salt, wipe 24 g.nonce, wipe 32 g.key, wipe 32 g.ct, wipe 16 g.mac, wipe 91 g.payload] ++ x := rfl
  rw [e, wipe_all g1.symm, wipe_all g2.symm, wipe_all g3.symm, wipe_all g4.symm, wipe_all g5.symm, wipe_all g6.symm]
  refine Clean.append ⟨.inr (.inl ?_), .inr (.inl ?_), .inr (.inl ?_), .inr (.inl ?_), .inr (.inl ?_), .inr (.inl ?_), trivial⟩ hx
  · rw [g1, h1]
  · rw [g2, h2]
  · rw [g3, h3]
  · rw [g4, h4]
  · rw [g5, h5]
  · rw [g6, h6]

/-- C163, encryption: on every path, whichever of the random generator, scrypt and the cipher fail, each buffer that was written
is wiped (salt, nonce, the key from the password, ciphertext, tag, payload, and the subkey, the nonce and the state of the
cipher). The outcome is that of the value model. -/
theorem C163_encrypt {L : Nip49.Lib} {f : EncFrame} {salt nonce : Option Bytes} {scr : Bytes × Bytes} {privkey password : Bytes} {logN : UInt8}
    {size : Nat} (hL : Sizes L) (hf : EncFrame.Sized f) (hs : Draws 16 salt) (hn : Draws 24 nonce) (hc : scr.1.length ≤ 32 ∧ scr.2.length ≤ 16)
    (hp : privkey.length = 32) :
    let r := encrypt L f salt nonce scr privkey password logN size;
    r.view = Nip49.encrypt L salt nonce privkey password logN size ∧ Clean [] f.dead r.left := by
  have hf' := hf
  obtain ⟨h1, h2, h3, h4, h5, h6, hx⟩ := hf
  simp only [encrypt, Nip49.encrypt]
  split
  · exact ⟨rfl, Clean.refl _⟩
  cases salt with
  | none => exact ⟨by cases nonce <;> rfl, encEnd_clean hf' hf' (Clean.refl _)⟩
  | some salt =>
    have ls := hs salt (by simp)
    have es : over 0 salt f.salt = salt := over_all (by omega)
    cases nonce with
    | none => exact ⟨rfl, encEnd_clean hf' ⟨by simp only [es, ls], h2, h3, h4, h5, h6, hx⟩ (Clean.refl _)⟩
    | some nonce =>
      have ln := hn nonce (by simp)
      have en : over 0 nonce f.nonce = nonce := over_all (by omega)
      simp only [es, en]
      cases hk : Nip49.deriveKey L password salt logN with
      | none => exact ⟨rfl, encEnd_clean hf' ⟨ls, ln, h3, h4, h5, h6, hx⟩ (Clean.refl _)⟩
      | some key =>
        have lk : key.length = 32 := hL.key _ _ _ _ _ _ hk
        have ek : over 0 key f.key = key := over_all (by omega)
        obtain ⟨v, l⟩ := xEncrypt_all (L := L) (key := key) (aad := [2]) (pt := privkey) hx ln
        simp only [ek, v, l]
        cases hv : Nip49.xEncrypt L key nonce [2] privkey with
        | none =>
          refine ⟨rfl, encEnd_clean hf' ⟨ls, ln, lk, ?_, ?_, h6, hx⟩ (zeroX_clean hx)⟩
          · rw [over_length (by omega), h4]
          · rw [over_length (by omega), h5]
        | some ct =>
          obtain ⟨ct, mac⟩ := ct
          obtain ⟨lc, lm⟩ := hL.sl _ _ _ _ _ _ hv
          have ec : over 0 ct f.ct = ct := over_all (by omega)
          have em : over 0 mac f.mac = mac := over_all (by omega)
          have ep : over 75 mac (over 43 ct (over 42 [2] (over 18 nonce (over 2 salt (over 0 [2, logN] f.payload))))) =
              [2, logN] ++ salt ++ nonce ++ [2] ++ ct ++ mac := by
            rw [over_zero, over_next (off := 2) rfl, over_next (off := 18) (by simp [ls]), over_next (off := 42) (by simp [ls, ln]),
              over_next (off := 43) (by simp [ls, ln]), over_next (off := 75) (by simp [ls, ln, lc, hp])]
            simp only [List.drop_drop]
            rw [List.drop_eq_nil_of_le (by simp [ls, ln, lc, hp, lm, h6]), List.append_nil]
          have lp : ([2, logN] ++ salt ++ nonce ++ [2] ++ ct ++ mac).length = 91 := by simp [ls, ln, lc, lm, hp]
          simp only [ec, em, ep]
          have sz : ∀ (r : Res Bytes), Clean [] f.dead (encEnd ⟨salt, nonce, key, ct, mac, [2, logN] ++ salt ++ nonce ++ [2] ++ ct ++ mac, f.x⟩ zeroX r).left :=
            fun r => encEnd_clean hf' ⟨ls, ln, lk, by rw [lc, hp], lm, lp, hx⟩ (zeroX_clean hx)
          by_cases hz : Bech32.convertBits ([2, logN] ++ salt ++ nonce ++ [2] ++ ct ++ mac) 146 8 5 true = []
          · rw [if_pos hz, if_pos hz]; exact ⟨rfl, sz _⟩
          · rw [if_neg hz, if_neg hz]
            cases Bech32.createChecksum c!"ncryptsec" (Bech32.convertBits ([2, logN] ++ salt ++ nonce ++ [2] ++ ct ++ mac) 146 8 5 true) with
            | none => exact ⟨rfl, sz _⟩
            | some ck => exact ⟨rfl, sz _⟩

theorem decEnd_clean {pub : List Bytes} {f g : DecFrame} {x : List Bytes} {r : Res Unit} {buf : Bytes} (hf : DecFrame.Sized f) (hg : DecFrame.Sized g)
    (hx : Clean pub f.x.dead x) : Clean pub f.dead (decEnd g x r buf).left := by
  obtain ⟨h1, h2, _⟩ := hf
  obtain ⟨g1, g2, _⟩ := hg
  have e : (decEnd g x r buf).left = [wipe 91 g.payload, wipe 32 g.key] ++ x := rfl
  rw [e, wipe_all g1.symm, wipe_all g2.symm]
  exact Clean.append ⟨.inr (.inl (by rw [g1, h1])), .inr (.inl (by rw [g2, h2])), trivial⟩ hx

/-- C163, decryption: the only thing that may be left is what was decoded of a text that turned out to be malformed. The key
from the password, and the subkey, the nonce and the state of the cipher, are wiped. The caller's key buffer holds the
decrypted key, or what it held before, or zeros. -/
theorem C163_decrypt {L : Nip49.Lib} {f : DecFrame} {part scr buf s password : Bytes} (hL : Sizes L) (hf : DecFrame.Sized f) (hb : buf.length = 32)
    (hc : scr.length ≤ 32) :
    let r := decrypt L f part scr buf s password;
    r.view = Nip49.decryptInto L buf buf s password ∧ Clean [part] f.dead r.left ∧
      (r.view.2 = buf ∨ r.view.2 = List.replicate 32 0 ∨ (r.view.1 = .ok () ∧ Nip49.decrypt L s password = .ok r.view.2)) := by
  have hf' := hf
  obtain ⟨h1, h2, hx⟩ := hf
  simp only [decrypt, Nip49.decryptInto, Nip49.decrypt]
  split
  · exact ⟨rfl, Clean.refl _, .inl rfl⟩
  cases hd : Nip49.decode s with
  | ub => exact ⟨rfl, Clean.refl _, .inl rfl⟩
  | err e => exact ⟨rfl, ⟨.inr (.inr (by simp)), .inl rfl, Clean.refl _⟩, .inl rfl⟩
  | ok p =>
    have lp : p.length = 91 := ((Nip49.decode_iff s p).1 hd).1
    have ep : over 0 p f.payload = p := over_all (by omega)
    simp only [ep]
    cases hq : Nip49.checkPayload p with
    | ub => exact absurd hq (by unfold Nip49.checkPayload; split <;> [skip; split <;> [skip; split]] <;> simp)
    | err e => exact ⟨rfl, decEnd_clean hf' ⟨lp, h2, hx⟩ (Clean.refl _), .inl rfl⟩
    | ok u =>
      simp only [Res.bind_ok, hq]
      cases hk : Nip49.deriveKey L password ((p.drop 2).take 16) (p.getD 1 0) with
      | none => exact ⟨rfl, decEnd_clean hf' ⟨lp, h2, hx⟩ (Clean.refl _), .inl rfl⟩
      | some key =>
        have lk : key.length = 32 := hL.key _ _ _ _ _ _ hk
        have ek : over 0 key f.key = key := over_all (by omega)
        obtain ⟨v, l⟩ := xDecrypt_all (L := L) (key := key) (n := (p.drop 18).take 24) (aad := [p.getD 42 0]) (ct := (p.drop 43).take 32)
          (tag := (p.drop 75).take 16) hx (by rw [List.length_take, List.length_drop]; omega)
        simp only [ek, v, l]
        cases hv : Nip49.xDecrypt L key ((p.drop 18).take 24) [p.getD 42 0] ((p.drop 43).take 32) ((p.drop 75).take 16) with
        | none =>
          have ew : wipe 32 (over 0 scr buf) = List.replicate 32 0 := by rw [wipe_over (by omega) hb.symm, hb]
          refine ⟨?_, decEnd_clean hf' ⟨lp, lk, hx⟩ (zeroX_clean hx), .inr (.inl ew)⟩
          simp only [decEnd, ew, List.map_const', hb]
        | some k =>
          have lc : k.length = 32 := by
            rw [hL.op _ _ _ _ _ _ hv, List.length_take, List.length_drop]; omega
          have ec : over 0 k buf = k := over_all (by omega)
          simp only [ec]
          exact ⟨rfl, decEnd_clean hf' ⟨lp, lk, hx⟩ (zeroX_clean hx), .inr (.inr ⟨rfl, rfl⟩)⟩

/-- C163, validation. -/
theorem C163_validate {b part s : Bytes} (hb : b.length = 91) :
    (validate b part s).view = Nip49.validate s ∧ Clean [part] [b] (validate b part s).left := by
  simp only [validate, Nip49.validate]
  cases hd : Nip49.decode s with
  | ub => exact ⟨rfl, Clean.refl _⟩
  | err e => exact ⟨rfl, .inr (.inr (by simp)), trivial⟩
  | ok p =>
    have lp : p.length = 91 := ((Nip49.decode_iff s p).1 hd).1
    have ep : over 0 p b = p := over_all (by omega)
    simp only [ep, wipe_all lp.symm]
    exact ⟨rfl, .inr (.inl (by rw [lp, hb])), trivial⟩

/-! ## A concrete case -/

/-- A library whose cipher turns the text round and fails if the first byte of the text is 0. -/
def toy : Nip49.Lib where
  scrypt pw _ _ _ _ := some (List.replicate 32 (UInt8.ofNat pw.length))
  sl k _ _ m := if m.head? = some 0 then none else some (m.reverse, List.replicate 16 (k.headD 0))
  open_ k _ _ c t := if t = List.replicate 16 (k.headD 0) then some c.reverse else none

theorem toy_sizes : Sizes toy where
  key := by
    intro pw salt n r p k h
    simp only [toy, Option.some.injEq] at h
    rw [← h, List.length_replicate]
  sl := by
    intro k n a m c t h
    simp only [toy] at h
    split at h
    · cases h
    · simp only [Option.some.injEq, Prod.mk.injEq] at h
      rw [← h.1, ← h.2, List.length_replicate, List.length_reverse]
      exact ⟨rfl, rfl⟩
  op := by
    intro k n a c t m h
    simp only [toy] at h
    split at h
    · simp only [Option.some.injEq] at h
      rw [← h, List.length_reverse]
    · cases h

def toyX : XFrame := ⟨List.replicate 64 7, List.replicate 32 7, List.replicate 12 7⟩
def toyEnc : EncFrame :=
  ⟨List.replicate 16 7, List.replicate 24 7, List.replicate 32 7, List.replicate 32 7, List.replicate 16 7, List.replicate 91 7, toyX⟩
def toyDec : DecFrame := ⟨List.replicate 91 7, List.replicate 32 7, toyX⟩

theorem toyX_sized : XFrame.Sized toyX := ⟨List.length_replicate, List.length_replicate, List.length_replicate⟩
theorem toyEnc_sized : EncFrame.Sized toyEnc :=
  ⟨List.length_replicate, List.length_replicate, List.length_replicate, List.length_replicate, List.length_replicate, List.length_replicate, toyX_sized⟩
theorem toyDec_sized : DecFrame.Sized toyDec := ⟨List.length_replicate, List.length_replicate, toyX_sized⟩

/-- A successful encryption, and one whose cipher fails after writing. -/
example (salt nonce privkey : Bytes) (h1 : salt.length = 16) (h2 : nonce.length = 24) (h3 : privkey.length = 32) :
    Clean [] toyEnc.dead (encrypt toy toyEnc (some salt) (some nonce) ([], []) privkey c!"pass" 18 163).left :=
  (C163_encrypt toy_sizes toyEnc_sized (by intro b h; cases h; exact h1) (by intro b h; cases h; exact h2) ⟨by decide, by decide⟩ h3).2

example :
    let r := encrypt toy toyEnc (some (List.replicate 16 3)) (some (List.replicate 24 5)) ([], []) (List.replicate 32 9) c!"pass" 18 163;
    r.view.isOk = true ∧ r.left = ([16, 24, 32, 32, 16, 91, 32, 12, 64].map fun n => List.replicate n 0) := by decide +kernel

example :
    let r := encrypt toy toyEnc (some (List.replicate 16 3)) (some (List.replicate 24 5)) ([1, 2, 3], [4]) (List.replicate 32 0) c!"pass" 18 163;
    r.view = .err .encoding ∧ r.left = ([16, 24, 32, 32, 16, 91, 32, 12, 64].map fun n => List.replicate n 0) := by decide +kernel

/-- Decryption with the right and with a wrong password. -/
example :
    (match Nip49.encrypt toy (some (List.replicate 16 3)) (some (List.replicate 24 5)) (List.replicate 32 9) c!"pass" 18 163 with
      | .ok s =>
          let r := decrypt toy toyDec [] [1, 2] (List.replicate 32 8) s c!"pass";
          let q := decrypt toy toyDec [] [1, 2] (List.replicate 32 8) s c!"wrong";
          decide (r.view = (.ok (), List.replicate 32 9) ∧ q.view = (.err .invalidSignature, List.replicate 32 0) ∧
            r.left = ([91, 32, 32, 12, 64].map fun n => List.replicate n 0) ∧ q.left = r.left)
      | _ => false) = true := by decide +kernel

example : Clean [[1]] toyDec.dead (decrypt toy toyDec [1] [1, 2] (List.replicate 32 8) c!"ncryptsec1abc" c!"pass").left :=
  (C163_decrypt toy_sizes toyDec_sized List.length_replicate (by decide)).2.1

end Nostr.Wipe.Ncrypt.Props
