import Verif.Nip49.Lemmas
import Verif.Nip21.Props

namespace Nostr.Nip49.Props
open Nostr Nostr.Bech32 Nostr.Nip49.Spec

/-! ## Fields and payloads -/

theorem bytes_length {f : Fields} (h : f.Ok) : f.bytes.length = 91 := by
  simp only [Fields.bytes, List.length_append, List.length_cons, List.length_nil, h.salt, h.nonce, h.ciphertext, h.tag]

/-- The fields at their places in a payload. -/
def parts (p : Bytes) : Fields :=
  ⟨p.getD 1 0, (p.drop 2).take 16, (p.drop 18).take 24, p.getD 42 0, (p.drop 43).take 32, (p.drop 75).take 16⟩

theorem bytes_parts {f : Fields} (h : f.Ok) : parts f.bytes = f := by
  obtain ⟨l, s, n, x, c, t⟩ := f
  obtain ⟨-, hs, hn, -, hc, ht⟩ := h
  simp only at hs hn hc ht
  have d2 : (Fields.bytes ⟨l, s, n, x, c, t⟩).drop 2 = s ++ (n ++ ([x] ++ (c ++ t))) := by simp [Fields.bytes]
  have d18 : (Fields.bytes ⟨l, s, n, x, c, t⟩).drop 18 = n ++ ([x] ++ (c ++ t)) := by
    rw [show (18 : Nat) = 2 + 16 from rfl, ← List.drop_drop, d2, List.drop_append_of_le_length (by omega), ← hs]; simp
  have d42 : (Fields.bytes ⟨l, s, n, x, c, t⟩).drop 42 = [x] ++ (c ++ t) := by
    rw [show (42 : Nat) = 18 + 24 from rfl, ← List.drop_drop, d18, List.drop_append_of_le_length (by omega), ← hn]; simp
  have d43 : (Fields.bytes ⟨l, s, n, x, c, t⟩).drop 43 = c ++ t := by
    rw [show (43 : Nat) = 42 + 1 from rfl, ← List.drop_drop, d42]; rfl
  have d75 : (Fields.bytes ⟨l, s, n, x, c, t⟩).drop 75 = t := by
    rw [show (75 : Nat) = 43 + 32 from rfl, ← List.drop_drop, d43, List.drop_append_of_le_length (by omega), ← hc]; simp
  have g42 : (Fields.bytes ⟨l, s, n, x, c, t⟩).getD 42 0 = x := by
    rw [List.getD_eq_getElem?_getD, show (42 : Nat) = 42 + 0 from rfl, ← List.getElem?_drop, d42]; rfl
  unfold parts
  rw [d2, d18, d43, d75, g42, List.take_left' hs, List.take_left' hn, List.take_left' hc, List.take_of_length_le (by omega)]
  rfl

theorem bytes_inj {f g : Fields} (hf : f.Ok) (hg : g.Ok) (h : f.bytes = g.bytes) : f = g := by
  rw [← bytes_parts hf, ← bytes_parts hg, h]

theorem check_iff (p : Bytes) (h : p.length = 91) : checkPayload p = .ok () ↔ (parts p).Ok ∧ p = (parts p).bytes := by
  obtain ⟨a, b, q, rfl⟩ : ∃ a b q, p = a :: b :: q := by
    match p, h with
    | a :: b :: q, _ => exact ⟨a, b, q, rfl⟩
  have hq : q.length = 89 := by simpa using h
  have hsplit : q = q.take 16 ++ ((q.drop 16).take 24 ++ ([q.getD 40 0] ++ ((q.drop 41).take 32 ++ (q.drop 73).take 16))) := by
    have e1 : q = q.take 16 ++ q.drop 16 := (List.take_append_drop _ _).symm
    have e2 : q.drop 16 = (q.drop 16).take 24 ++ q.drop 40 := by
      have := (List.take_append_drop 24 (q.drop 16)).symm
      rwa [List.drop_drop] at this
    have e3 : q.drop 40 = [q.getD 40 0] ++ q.drop 41 := by
      rw [List.drop_eq_getElem_cons (by omega : 40 < q.length)]
      simp [List.getD_eq_getElem?_getD, List.getElem?_eq_getElem (by omega : 40 < q.length)]
    have e4 : q.drop 41 = (q.drop 41).take 32 ++ q.drop 73 := by
      have := (List.take_append_drop 32 (q.drop 41)).symm
      rwa [List.drop_drop] at this
    have e5 : q.drop 73 = (q.drop 73).take 16 := (List.take_of_length_le (by simp; omega)).symm
    rw [← e5, ← e4, ← e3, ← e2, ← e1]
  have ha : (a :: b :: q).getD 0 0 = a := rfl
  have hb : (a :: b :: q).getD 1 0 = b := rfl
  have hx : (a :: b :: q).getD 42 0 = q.getD 40 0 := rfl
  have hbytes : (parts (a :: b :: q)).bytes = [2, b] ++ q := by
    conv => rhs; rw [hsplit]
    simp [parts, Fields.bytes]
  unfold checkPayload
  rw [hbytes, ha, hb, hx]
  constructor
  · intro hc
    split at hc
    · cases hc
    · rename_i h2
      split at hc
      · cases hc
      · rename_i h16
        split at hc
        · cases hc
        · rename_i hs
          simp only [not_or, UInt8.not_lt, gt_iff_lt] at h16 hs
          have k1 := UInt8.le_iff_toNat_le.1 h16.1
          have k2 := UInt8.le_iff_toNat_le.1 h16.2
          have k3 := UInt8.le_iff_toNat_le.1 hs
          refine ⟨⟨⟨k1, k2⟩, ?_, ?_, k3, ?_, ?_⟩, by simp [Decidable.not_not.1 h2]⟩ <;>
            simp only [parts, List.length_take, List.length_drop, List.length_cons, hq] <;> rfl
  · rintro ⟨⟨⟨k1, k2⟩, _, _, k3, _, _⟩, e⟩
    have ha2 : a = 2 := by simpa using (List.cons.inj e).1
    have k1' : 16 ≤ b := UInt8.le_iff_toNat_le.2 k1
    have k2' : b ≤ 22 := UInt8.le_iff_toNat_le.2 k2
    have k3' : q.getD 40 0 ≤ 2 := UInt8.le_iff_toNat_le.2 k3
    rw [if_neg (by simp [ha2]), if_neg (by simp only [not_or, UInt8.not_lt, gt_iff_lt]; exact ⟨k1', k2'⟩),
      if_neg (by simp only [UInt8.not_lt, gt_iff_lt]; exact k3')]

theorem check_noub (p : Bytes) : checkPayload p ≠ .ub := by
  unfold checkPayload
  repeat' split
  all_goals simp

/-- Acceptance by decoding and the payload checks. -/
theorem accepted_iff (s : Bytes) (p : Bytes) :
    (decode s = .ok p ∧ checkPayload p = .ok ()) ↔ ∃ f : Fields, f.Ok ∧ p = f.bytes ∧ s = Nip21.text hrp f.bytes := by
  constructor
  · rintro ⟨h1, h2⟩
    obtain ⟨hl, rfl⟩ := (decode_iff s p).1 h1
    obtain ⟨k1, k2⟩ := (check_iff p hl).1 h2
    exact ⟨parts p, k1, k2, by rw [← k2]⟩
  · rintro ⟨f, hf, rfl, rfl⟩
    have hl := bytes_length hf
    refine ⟨(decode_iff _ _).2 ⟨hl, rfl⟩, (check_iff _ hl).2 ?_⟩
    rw [bytes_parts hf]
    exact ⟨hf, rfl⟩

/-- BIP-173 texts of 91 bytes are the texts the library writes. -/
theorem isText_iff (f : Fields) (s : Bytes) : Spec.IsText f s ↔ f.Ok ∧ s = Nip21.text hrp f.bytes := by
  constructor
  · rintro ⟨hf, ht⟩
    refine ⟨hf, ?_⟩
    exact Nip21.Props.isText_eq hrp41 (by decide) ht
  · rintro ⟨hf, rfl⟩
    exact ⟨hf, isText_text _⟩

theorem nonce12_eq {n : Bytes} (h : n.length = 24) : nonce12 n = [0, 0, 0, 0] ++ n.drop 16 := by
  unfold nonce12
  rw [List.take_of_length_le (by simp; omega)]
  rfl

/-- The key and nonce of the IETF cipher, from the model's functions. -/
theorem cipherKey_eq (L : Lib) (pw salt : Bytes) (logN : UInt8) (nonce : Bytes) (h : nonce.length = 24) :
    cipherKey L pw salt logN nonce = (deriveKey L pw salt logN).map fun k => (Nip49.hchacha20 k nonce, nonce12 nonce) := by
  unfold cipherKey deriveKey
  rw [nonce12_eq h]
  simp only [hchacha_take]

/-! ## C63, C110 -/

/-- **C110**: whatever the library produces is the NIP-49 text: the bech32 text, under `ncryptsec`, of the
91 bytes 0x02, cost, salt, nonce, security byte 0x02, ciphertext and tag, where ciphertext and tag come
from ChaCha20-Poly1305 with the security byte as associated data, keyed with HChaCha20 of the scrypt key
(`N = 2^cost, r = 8, p = 1`); it has 162 characters.  It is produced only for a non-empty password, cost
16..22 and a buffer of at least 163 bytes. -/
theorem C110_text (L : Lib) (hL : LibOK L) (salt nonce priv pw : Bytes) (logN : UInt8) (size : Nat) (s : Bytes)
    (hs : salt.length = 16) (hn : nonce.length = 24) (hp : priv.length = 32)
    (h : encrypt L (some salt) (some nonce) priv pw logN size = .ok s) :
    pw ≠ [] ∧ 163 ≤ size ∧ s.length = 162 ∧
    ∃ key n12 ct tag, cipherKey L pw salt logN nonce = some (key, n12) ∧ L.sl key n12 [0x02] priv = some (ct, tag) ∧
      Spec.IsText ⟨logN, salt, nonce, 0x02, ct, tag⟩ s := by
  unfold encrypt at h
  split at h
  · cases h
  · rename_i hpar
    simp only [not_or, gt_iff_lt, UInt8.not_lt, Nat.not_lt] at hpar
    simp only at h
    split at h
    · cases h
    · rename_i key hk
      split at h
      · cases h
      · rename_i ct mac hx
        obtain ⟨z1, z2⟩ := hL.size _ _ _ _ _ _ hx
        have hf : Fields.Ok ⟨logN, salt, nonce, 0x02, ct, mac⟩ :=
          ⟨⟨UInt8.le_iff_toNat_le.1 hpar.2.1, UInt8.le_iff_toNat_le.1 hpar.2.2.1⟩, hs, hn, (by decide : (2 : UInt8).toNat ≤ 2), by simp only; omega, z2⟩
        have hlen := bytes_length hf
        have hconv : convertBits ([2, logN] ++ salt ++ nonce ++ [2] ++ ct ++ mac) 146 8 5 true
            = Nip21.conv (Fields.bytes ⟨logN, salt, nonce, 0x02, ct, mac⟩) := by
          unfold Nip21.conv
          rw [hlen]
          rfl
        simp only [hconv] at h
        have hne : Fields.bytes ⟨logN, salt, nonce, 0x02, ct, mac⟩ ≠ [] := by
          intro h0; rw [h0] at hlen; cases hlen
        rw [if_neg (Nip21.conv_ne hne)] at h
        have hck := (Nip21.ck_spec hrp41 (Fields.bytes ⟨logN, salt, nonce, 0x02, ct, mac⟩)).1
        simp only [hrp] at hck
        rw [hck] at h
        simp only [Res.ok.injEq] at h
        have hs' : s = Nip21.text hrp (Fields.bytes ⟨logN, salt, nonce, 0x02, ct, mac⟩) := by
          rw [← h]
          unfold Nip21.text
          rw [List.map_append, ← List.append_assoc]
          rfl
        refine ⟨by intro h0; rw [h0] at hpar; exact hpar.1 rfl, hpar.2.2.2, by rw [hs', text91_length hlen], ?_⟩
        refine ⟨Nip49.hchacha20 key nonce, nonce12 nonce, ct, mac, ?_, hx, (isText_iff _ _).2 ⟨hf, hs'⟩⟩
        rw [cipherKey_eq L pw salt logN nonce hn, hk]
        rfl

/-- **C63** (success): with a non-empty password, a cost of 16..22, a big enough buffer and working
random bytes, scrypt and cipher, encryption succeeds. -/
theorem C63_encrypts (L : Lib) (hL : LibOK L) (salt nonce priv pw : Bytes) (logN : UInt8) (size : Nat)
    (key n12 : Bytes) (ct tag : Bytes)
    (hs : salt.length = 16) (hn : nonce.length = 24) (hp : priv.length = 32)
    (hpw : pw ≠ []) (h16 : 16 ≤ logN.toNat) (h22 : logN.toNat ≤ 22) (hsize : 163 ≤ size)
    (hk : cipherKey L pw salt logN nonce = some (key, n12)) (hc : L.sl key n12 [0x02] priv = some (ct, tag)) :
    ∃ s, encrypt L (some salt) (some nonce) priv pw logN size = .ok s := by
  rw [cipherKey_eq L pw salt logN nonce hn, Option.map_eq_some_iff] at hk
  obtain ⟨k, hk, e⟩ := hk
  cases e
  obtain ⟨z1, z2⟩ := hL.size _ _ _ _ _ _ hc
  have hlen : Fields.bytes ⟨logN, salt, nonce, 0x02, ct, tag⟩ ≠ [] := by simp [Fields.bytes]
  unfold encrypt
  rw [if_neg (by
    simp only [not_or, gt_iff_lt, UInt8.not_lt, Nat.not_lt]
    exact ⟨by simpa using hpw, UInt8.le_iff_toNat_le.2 h16, UInt8.le_iff_toNat_le.2 h22, hsize⟩)]
  simp only [hk, xEncrypt, hc]
  have hf : Fields.Ok ⟨logN, salt, nonce, 0x02, ct, tag⟩ := ⟨⟨h16, h22⟩, hs, hn, (by decide : (2 : UInt8).toNat ≤ 2), by simp only; omega, z2⟩
  have hconv : convertBits ([2, logN] ++ salt ++ nonce ++ [2] ++ ct ++ tag) 146 8 5 true
      = Nip21.conv (Fields.bytes ⟨logN, salt, nonce, 0x02, ct, tag⟩) := by
    unfold Nip21.conv
    rw [bytes_length hf]
    rfl
  have hck := (Nip21.ck_spec hrp41 (Fields.bytes ⟨logN, salt, nonce, 0x02, ct, tag⟩)).1
  simp only [hrp] at hck
  rw [hconv, if_neg (Nip21.conv_ne hlen), hck]
  exact ⟨_, rfl⟩

/-- **C63** (validation, exactly): a text validates exactly when it is the NIP-49 text of fields with the
documented sizes, a cost of 16..22 and a security byte of at most 2. -/
theorem C63_validate_iff (s : Bytes) : validate s = .ok () ↔ ∃ f : Fields, Spec.IsText f s := by
  unfold validate
  rw [Res.bind_eq_ok]
  constructor
  · rintro ⟨p, h1, h2⟩
    obtain ⟨f, hf, _, hs⟩ := (accepted_iff s p).1 ⟨h1, h2⟩
    exact ⟨f, (isText_iff f s).2 ⟨hf, hs⟩⟩
  · rintro ⟨f, h⟩
    obtain ⟨hf, hs⟩ := (isText_iff f s).1 h
    exact ⟨f.bytes, (accepted_iff s f.bytes).2 ⟨f, hf, rfl, hs⟩⟩

/-- **C63** (decryption, exactly): decryption returns `k` exactly when the password is not empty, the text
is the NIP-49 text of some fields and the cipher, keyed from the password and these fields, opens their
ciphertext to `k` with their tag and security byte. -/
theorem C63_decrypt_iff (L : Lib) (s pw k : Bytes) : decrypt L s pw = .ok k ↔
    pw ≠ [] ∧ ∃ f : Fields, Spec.IsText f s ∧ ∃ key n12, cipherKey L pw f.salt f.logN f.nonce = some (key, n12) ∧
      L.open_ key n12 [f.security] f.ciphertext f.tag = some k := by
  unfold decrypt
  split
  · rename_i h0
    have : pw = [] := List.length_eq_zero_iff.1 h0
    simp [this]
  · rename_i h0
    have hpw : pw ≠ [] := fun h => h0 (by rw [h]; rfl)
    rw [Res.bind_eq_ok]
    constructor
    · rintro ⟨p, h1, h2⟩
      rw [Res.bind_eq_ok] at h2
      obtain ⟨u, h2, h3⟩ := h2
      obtain ⟨f, hf, hp, hs⟩ := (accepted_iff s p).1 ⟨h1, h2⟩
      refine ⟨hpw, f, (isText_iff f s).2 ⟨hf, hs⟩, ?_⟩
      have hparts := bytes_parts hf
      rw [← hp] at hparts
      subst hparts
      simp only at h3
      split at h3
      · cases h3
      · rename_i key hk
        split at h3
        · cases h3
        · rename_i k' hx
          simp only [Res.ok.injEq] at h3
          subst h3
          refine ⟨Nip49.hchacha20 key (parts p).nonce, nonce12 (parts p).nonce, ?_, hx⟩
          rw [cipherKey_eq _ _ _ _ _ hf.nonce]
          rw [show deriveKey L pw (parts p).salt (parts p).logN = some key from hk]
          rfl
    · rintro ⟨_, f, h, key, n12, hk, ho⟩
      obtain ⟨hf, hs⟩ := (isText_iff f s).1 h
      obtain ⟨h1, h2⟩ := (accepted_iff s f.bytes).2 ⟨f, hf, rfl, hs⟩
      refine ⟨f.bytes, h1, ?_⟩
      rw [h2]
      simp only [Res.bind_ok]
      have hparts := bytes_parts hf
      rw [cipherKey_eq _ _ _ _ _ hf.nonce, Option.map_eq_some_iff] at hk
      obtain ⟨k0, hk, e⟩ := hk
      cases e
      have e1 : (f.bytes.drop 2).take 16 = f.salt := congrArg Fields.salt hparts
      have e2 : f.bytes.getD 1 0 = f.logN := rfl
      have e3 : (f.bytes.drop 18).take 24 = f.nonce := congrArg Fields.nonce hparts
      have e4 : f.bytes.getD 42 0 = f.security := congrArg Fields.security hparts
      have e5 : (f.bytes.drop 43).take 32 = f.ciphertext := congrArg Fields.ciphertext hparts
      have e6 : (f.bytes.drop 75).take 16 = f.tag := congrArg Fields.tag hparts
      rw [e1, e2, e3, e4, e5, e6, hk]
      simp only [xDecrypt, ho]

theorem isText_fields {f g : Fields} {s : Bytes} (hf : Spec.IsText f s) (hg : Spec.IsText g s) : f = g := by
  obtain ⟨f1, f2⟩ := (isText_iff f s).1 hf
  obtain ⟨g1, g2⟩ := (isText_iff g s).1 hg
  exact bytes_inj f1 g1 (text_inj (bytes_length f1) (bytes_length g1) (f2.symm.trans g2))

/-- **C63** (round trip): the produced text validates and decrypts, with the same password, to the key. -/
theorem C63_roundtrip (L : Lib) (hL : LibOK L) (salt nonce priv pw : Bytes) (logN : UInt8) (size : Nat) (s : Bytes)
    (hs : salt.length = 16) (hn : nonce.length = 24) (hp : priv.length = 32)
    (h : encrypt L (some salt) (some nonce) priv pw logN size = .ok s) :
    validate s = .ok () ∧ decrypt L s pw = .ok priv := by
  obtain ⟨hpw, _, _, key, n12, ct, tag, hk, hc, ht⟩ := C110_text L hL salt nonce priv pw logN size s hs hn hp h
  refine ⟨(C63_validate_iff s).2 ⟨_, ht⟩, (C63_decrypt_iff L s pw priv).2 ⟨hpw, _, ht, key, n12, hk, ?_⟩⟩
  exact (hL.back _ _ _ _ _ _).2 hc

/-- **C63** (a decrypted text was made from that key and password): if decryption returns `k`, then `k` is a
32-byte key and sealing it under the same password, with the parameters in the text, gives the text back. -/
theorem C63_only_sealed (L : Lib) (hL : LibOK L) (s pw k : Bytes) (h : decrypt L s pw = .ok k) :
    k.length = 32 ∧ ∃ f : Fields, Spec.IsText f s ∧ ∃ key n12, cipherKey L pw f.salt f.logN f.nonce = some (key, n12) ∧
      L.sl key n12 [f.security] k = some (f.ciphertext, f.tag) := by
  obtain ⟨_, f, ht, key, n12, hk, ho⟩ := (C63_decrypt_iff L s pw k).1 h
  have hsl := (hL.back _ _ _ _ _ _).1 ho
  have hlen := (hL.size _ _ _ _ _ _ hsl).1
  have hct := ht.1.ciphertext
  exact ⟨by omega, f, ht, key, n12, hk, hsl⟩

/-- **C63** (wrong password or altered text): let `s` be produced from `priv` and `pw`.  If some other pair
of text and password decrypts, then either two different choices of password, salt, cost and nonce give
the cipher the same key and nonce, or the cipher opened something (key, nonce, associated data,
ciphertext, tag) that was not sealed for `s`: a forgery. -/
theorem C63_altered_rejected (L : Lib) (hL : LibOK L) (salt nonce priv pw : Bytes) (logN : UInt8) (size : Nat) (s : Bytes)
    (hs : salt.length = 16) (hn : nonce.length = 24) (hp : priv.length = 32)
    (h : encrypt L (some salt) (some nonce) priv pw logN size = .ok s)
    (s' pw' k' : Bytes) (hne : ¬ (s' = s ∧ pw' = pw)) (hd : decrypt L s' pw' = .ok k') :
    (∃ salt' logN' nonce', (pw', salt', logN', nonce') ≠ (pw, salt, logN, nonce) ∧
      cipherKey L pw' salt' logN' nonce' = cipherKey L pw salt logN nonce) ∨
    (∃ key n12 ct tag key' n12' sec' ct' tag', cipherKey L pw salt logN nonce = some (key, n12) ∧
      L.sl key n12 [0x02] priv = some (ct, tag) ∧
      (key', n12', sec', ct', tag') ≠ (key, n12, [0x02], ct, tag) ∧ L.open_ key' n12' sec' ct' tag' = some k') := by
  obtain ⟨_, _, _, key, n12, ct, tag, hk, hc, ht⟩ := C110_text L hL salt nonce priv pw logN size s hs hn hp h
  obtain ⟨_, f, ht', key', n12', hk', ho⟩ := (C63_decrypt_iff L s' pw' k').1 hd
  by_cases hcol : (key', n12', [f.security], f.ciphertext, f.tag) = (key, n12, ([0x02] : Bytes), ct, tag)
  · left
    simp only [Prod.mk.injEq, List.cons.injEq, and_true] at hcol
    obtain ⟨e1, e2, e3, e4, e5⟩ := hcol
    refine ⟨f.salt, f.logN, f.nonce, ?_, by rw [hk', hk, e1, e2]⟩
    intro e
    simp only [Prod.mk.injEq] at e
    obtain ⟨p1, p2, p3, p4⟩ := e
    apply hne
    refine ⟨?_, p1⟩
    obtain ⟨l, sa, n, x, c, t⟩ := f
    simp only at p2 p3 p4 e3 e4 e5
    subst p2 p3 p4 e3 e4 e5
    rw [((isText_iff _ s').1 ht').2, ((isText_iff _ s).1 ht).2]
  · right
    exact ⟨key, n12, ct, tag, key', n12', [f.security], f.ciphertext, f.tag, hk, hc, hcol, ho⟩

/-- **C63** (typing errors): changing one or two characters of a text that validates makes it invalid, for
validation and for decryption with any password, whatever the cipher. -/
theorem C63_typo_rejected (s s' : Bytes) (hv : validate s = .ok ()) (hlen : s'.length = s.length)
    (h1 : 1 ≤ hamming s s') (h2 : hamming s s' ≤ 2) :
    validate s' = .err .encoding ∧ ∀ L pw, pw ≠ [] → decrypt L s' pw = .err .encoding := by
  obtain ⟨f, hf⟩ := (C63_validate_iff s).1 hv
  obtain ⟨ho, hs⟩ := (isText_iff f s).1 hf
  have h91 := bytes_length ho
  have hd : decode s' = .err .encoding := by
    cases hd : decode s' with
    | ub => exact absurd hd (decode_noub _)
    | err e => rw [decode_err hd]
    | ok d' =>
      exfalso
      obtain ⟨hl', hs'⟩ := (decode_iff s' d').1 hd
      subst hs hs'
      have := Nip21.Props.text_distance hrp41 hlen.symm (by rw [text91_length h91]; decide) h1
      omega
  refine ⟨by simp [validate, hd], ?_⟩
  intro L pw hpw
  unfold decrypt
  rw [if_neg (by simpa using hpw), hd]
  rfl

/-- **C63** (any text): validation and decryption of an arbitrary text stay within their buffers. -/
theorem C63_any_text (L : Lib) (s pw : Bytes) : validate s ≠ .ub ∧ decrypt L s pw ≠ .ub := by
  have hv : validate s ≠ .ub := by
    intro h
    unfold validate at h
    rw [Res.bind_eq_ub] at h
    rcases h with h | ⟨p, _, h⟩
    · exact decode_noub _ h
    · exact check_noub _ h
  refine ⟨hv, ?_⟩
  unfold decrypt
  split
  · simp
  · intro h
    rw [Res.bind_eq_ub] at h
    rcases h with h | ⟨p, _, h⟩
    · exact decode_noub _ h
    · rw [Res.bind_eq_ub] at h
      rcases h with h | ⟨u, _, h⟩
      · exact check_noub _ h
      · simp only at h
        split at h
        · cases h
        · split at h <;> cases h

/-! ## C111 -/

/-- **C111**: a decryption that does not succeed leaves the caller's key buffer as it was or all zero,
whatever the cipher stored there before it noticed the wrong tag; one that succeeds leaves the key. -/
theorem C111_no_residue (L : Lib) (scribbled buf s pw : Bytes) :
    match decrypt L s pw, decryptInto L scribbled buf s pw with
    | .ok k, (r, b) => r = .ok () ∧ b = k
    | .err e, (r, b) => r = .err e ∧ (b = buf ∨ ∀ x ∈ b, x = 0)
    | .ub, _ => False := by
  have hno := (C63_any_text L s pw).2
  unfold decrypt decryptInto at *
  by_cases h0 : pw.length = 0
  · simp [h0]
  · simp only [h0, if_false] at hno ⊢
    cases hd : decode s with
    | ub => exact absurd hd (decode_noub _)
    | err e => simp
    | ok p =>
      simp only [Res.bind_ok]
      cases hc : checkPayload p with
      | ub => exact absurd hc (check_noub _)
      | err e => simp
      | ok u =>
        simp only [Res.bind_ok]
        cases hk : deriveKey L pw ((p.drop 2).take 16) (p.getD 1 0) with
        | none => simp
        | some key =>
          simp only
          cases hx : xDecrypt L key ((p.drop 18).take 24) [p.getD 42 0] ((p.drop 43).take 32) ((p.drop 75).take 16) with
          | none => simp
          | some k => simp

/-! ## Instances -/

/-- A cipher with the properties assumed: the tag adds up all inputs. -/
def toyTag (k n a m : Bytes) : Bytes := List.replicate 16 ((k ++ n ++ a ++ m).foldl (fun x b => x * 31 + b) 7)

def toyLib : Lib where
  scrypt pw salt N _ _ := some ((pw ++ salt ++ List.replicate 32 (UInt8.ofNat N.log2)).take 32)
  sl k n a m := some (m.reverse, toyTag k n a m)
  open_ k n a ct tag := if tag = toyTag k n a ct.reverse then some ct.reverse else none

theorem toyLib_ok : LibOK toyLib := by
  constructor
  · intro k n a m ct tag h
    simp only [toyLib, Option.some.injEq, Prod.mk.injEq] at h
    rw [← h.1, ← h.2]
    exact ⟨List.length_reverse, List.length_replicate⟩
  · intro k n a m ct tag
    simp only [toyLib, Option.ite_none_right_eq_some, Option.some.injEq, Prod.mk.injEq]
    constructor
    · rintro ⟨h1, h2⟩
      rw [← h2]
      exact ⟨List.reverse_reverse _, h1.symm⟩
    · rintro ⟨h1, h2⟩
      rw [← h1, List.reverse_reverse]
      exact ⟨h2.symm, rfl⟩

/-- The setting of the C63 and C110 theorems is met: this encryption succeeds, validates and decrypts. -/
example : ∃ s, encrypt toyLib (some (List.replicate 16 3)) (some (List.replicate 24 5)) (List.replicate 32 9) (c!"pass")
      18 200 = .ok s ∧ validate s = .ok () ∧ decrypt toyLib s (c!"pass") = .ok (List.replicate 32 9) := by
  obtain ⟨s, h⟩ := C63_encrypts toyLib toyLib_ok (List.replicate 16 3) (List.replicate 24 5) (List.replicate 32 9) (c!"pass")
    18 200 _ _ _ _ (by decide) (by decide) (by decide) (by decide) (by decide) (by decide) (by decide) rfl rfl
  obtain ⟨h1, h2⟩ := C63_roundtrip toyLib toyLib_ok _ _ _ _ _ _ s (by decide) (by decide) (by decide) h
  exact ⟨s, h, h1, h2⟩

/-- A wrong password is refused. -/
example : (do let s ← encrypt toyLib (some (List.replicate 16 3)) (some (List.replicate 24 5)) (List.replicate 32 9)
                (c!"pass") 18 200
              decrypt toyLib s (c!"word")) = .err .invalidSignature := by decide +kernel

/-- HChaCha20's published test vector (draft-irtf-cfrg-xchacha, section 2.2.1). -/
example : Nip49.hchacha20 ((List.range 32).map UInt8.ofNat)
    [0, 0, 0, 9, 0, 0, 0, 0x4a, 0, 0, 0, 0, 0x31, 0x41, 0x59, 0x27] =
    [0x82, 0x41, 0x3b, 0x42, 0x27, 0xb2, 0x7b, 0xfe, 0xd3, 0x0e, 0x42, 0x50, 0x8a, 0x87, 0x7d, 0x73,
     0xa0, 0xf9, 0xe4, 0xd5, 0x8a, 0x74, 0xa8, 0x53, 0xc1, 0x2e, 0xc4, 0x13, 0x26, 0xd3, 0xec, 0xdc] := by
  decide +kernel

end Nostr.Nip49.Props
