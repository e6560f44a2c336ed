import Verif.Nip04.Model
import Verif.Base64

/-! # Property theorems: NIP-04 (C126-C128) -/

namespace Nostr.Nip04.Props
open Nostr Nostr.Nip04

/-- What is assumed of the block cipher under a key: a permutation of the blocks of 16 bytes. -/
structure CipherOK (C : Cipher) (key : Bytes) : Prop where
  encLen : ∀ b, b.length = 16 → (C.enc key b).length = 16
  decLen : ∀ b, b.length = 16 → (C.dec key b).length = 16
  decEnc : ∀ b, b.length = 16 → C.dec key (C.enc key b) = b
  encDec : ∀ b, b.length = 16 → C.enc key (C.dec key b) = b

/-- What is assumed of base64: reading inverts writing, as long as the text has a length that is an `int`; and no text
contains a question mark. -/
structure CodecOK (B : Codec) : Prop where
  inv : ∀ x, x ≠ [] → x.length ≤ limit → B.read (B.enc x) = some x
  full : ∀ x, x ≠ [] → B.enc x ≠ []
  plain : ∀ x, 0x3f ∉ B.enc x

/-! ## Lemmas -/

theorem xor_length {a b : Bytes} (h : a.length = b.length) : (xor a b).length = a.length := by
  simp [xor, h]

theorem xor_xor : ∀ {a b : Bytes}, a.length = b.length → xor (xor a b) b = a
  | [], [], _ => rfl
  | x :: a, y :: b, h => by
      have ih := xor_xor (a := a) (b := b) (by simpa using h)
      simp only [xor, List.zipWith_cons_cons] at ih ⊢
      rw [ih]
      congr 1
      rw [UInt8.xor_assoc, UInt8.xor_self, UInt8.xor_zero]
  | [], _ :: _, h => by simp at h
  | _ :: _, [], h => by simp at h

theorem xor_swap : ∀ {a b c : Bytes}, a.length = b.length → b.length = c.length → xor a (xor b c) = xor (xor a b) c
  | [], [], [], _, _ => rfl
  | x :: a, y :: b, z :: c, h, h' => by
      have ih := xor_swap (a := a) (b := b) (c := c) (by simpa using h) (by simpa using h')
      simp only [xor, List.zipWith_cons_cons] at ih ⊢
      rw [ih, UInt8.xor_assoc]
  | [], _ :: _, _, h, _ => by simp at h
  | _ :: _, [], _, h, _ => by simp at h
  | _, [], _ :: _, _, h => by simp at h
  | _, _ :: _, [], _, h => by simp at h

/-- Every piece is a full block. -/
def Full (bs : List Bytes) : Prop := ∀ b ∈ bs, b.length = 16

theorem blocks_flatten : ∀ (f : Nat) (s : Bytes), s.length ≤ f → (blocks f s).flatten = s
  | 0, s, h => by simp [blocks, List.eq_nil_of_length_eq_zero (Nat.le_zero.1 h)]
  | f + 1, [], _ => by simp [blocks]
  | f + 1, c :: s, h => by
      simp only [List.length_cons] at h
      rw [blocks, List.flatten_cons, blocks_flatten f _ (by simp; omega), List.take_append_drop]

theorem blocks_full : ∀ (f : Nat) (s : Bytes), s.length ≤ f → s.length % 16 = 0 → Full (blocks f s)
  | 0, s, _, _ => by intro b hb; simp [blocks] at hb
  | f + 1, [], _, _ => by intro b hb; simp [blocks] at hb
  | f + 1, c :: s, h, hm => by
      intro b hb
      have hl : 16 ≤ (c :: s).length := by simp only [List.length_cons] at hm ⊢; omega
      rw [blocks] at hb
      rcases List.mem_cons.1 hb with rfl | hb
      · rw [List.length_take]; omega
      · refine blocks_full f _ ?_ ?_ b hb
        · simp only [List.length_drop, List.length_cons] at h ⊢; omega
        · simp only [List.length_drop] at hl ⊢; omega

theorem blocks_of_flatten : ∀ (bs : List Bytes) (f : Nat), Full bs → bs.flatten.length ≤ f → blocks f bs.flatten = bs
  | [], f, _, _ => by cases f <;> simp [blocks]
  | b :: bs, f, h, hf => by
      have hb : b.length = 16 := h b (by simp)
      have ht : Full bs := fun x hx => h x (by simp [hx])
      rw [List.flatten_cons] at hf ⊢
      rw [List.length_append] at hf
      cases f with
      | zero => omega
      | succ f =>
        have hne : ∃ c s, b ++ bs.flatten = c :: s := by
          cases b with
          | nil => simp at hb
          | cons c b => exact ⟨c, b ++ bs.flatten, rfl⟩
        obtain ⟨c, s, hs⟩ := hne
        rw [hs, blocks, ← hs]
        have h1 : (b ++ bs.flatten).take 16 = b := by rw [← hb, List.take_left]
        have h2 : (b ++ bs.flatten).drop 16 = bs.flatten := by rw [← hb, List.drop_left]
        rw [h1, h2, blocks_of_flatten bs f ht (by omega)]

/-- The blocks of the encrypted text. -/
def chainL (f : Bytes → Bytes) : Bytes → List Bytes → List Bytes
  | _, [] => []
  | iv, b :: bs => f (xor b iv) :: chainL f (f (xor b iv)) bs

theorem chain_flatten (f : Bytes → Bytes) : ∀ (bs : List Bytes) (iv : Bytes), chain f iv bs = (chainL f iv bs).flatten
  | [], _ => rfl
  | b :: bs, iv => by simp only [chain, chainL, List.flatten_cons, chain_flatten f bs]

theorem chainL_full {C : Cipher} {key : Bytes} (h : CipherOK C key) : ∀ (bs : List Bytes) (iv : Bytes),
    iv.length = 16 → Full bs → Full (chainL (C.enc key) iv bs)
  | [], _, _, _ => by intro b hb; simp [chainL] at hb
  | b :: bs, iv, hi, hf => by
      have hb : b.length = 16 := hf b (by simp)
      have hc : (C.enc key (xor b iv)).length = 16 := h.encLen _ (by rw [xor_length (by omega)]; exact hb)
      intro x hx
      rcases List.mem_cons.1 hx with rfl | hx
      · exact hc
      · exact chainL_full h bs _ hc (fun y hy => hf y (by simp [hy])) x hx

/-- The plain blocks of an encrypted text. -/
def unchainL (f : Bytes → Bytes) : Bytes → List Bytes → List Bytes
  | _, [] => []
  | iv, c :: cs => xor (f c) iv :: unchainL f c cs

theorem unchain_flatten (f : Bytes → Bytes) : ∀ (bs : List Bytes) (iv : Bytes), unchain f iv bs = (unchainL f iv bs).flatten
  | [], _ => rfl
  | b :: bs, iv => by simp only [unchain, unchainL, List.flatten_cons, unchain_flatten f bs]

theorem unchainL_full {C : Cipher} {key : Bytes} (h : CipherOK C key) : ∀ (bs : List Bytes) (iv : Bytes),
    iv.length = 16 → Full bs → Full (unchainL (C.dec key) iv bs)
  | [], _, _, _ => by intro b hb; simp [unchainL] at hb
  | b :: bs, iv, hi, hf => by
      have hb : b.length = 16 := hf b (by simp)
      intro x hx
      rcases List.mem_cons.1 hx with rfl | hx
      · rw [xor_length (by rw [h.decLen _ hb]; omega)]; exact h.decLen _ hb
      · exact unchainL_full h bs _ hb (fun y hy => hf y (by simp [hy])) x hx

theorem unchain_chain {C : Cipher} {key : Bytes} (h : CipherOK C key) : ∀ (bs : List Bytes) (iv : Bytes),
    iv.length = 16 → Full bs → unchainL (C.dec key) iv (chainL (C.enc key) iv bs) = bs
  | [], _, _, _ => rfl
  | b :: bs, iv, hi, hf => by
      have hb : b.length = 16 := hf b (by simp)
      have hx : (xor b iv).length = 16 := by rw [xor_length (by omega)]; exact hb
      simp only [chainL, unchainL]
      rw [unchain_chain h bs _ (h.encLen _ hx) (fun y hy => hf y (by simp [hy])), h.decEnc _ hx, xor_xor (by omega)]

theorem chain_unchain {C : Cipher} {key : Bytes} (h : CipherOK C key) : ∀ (cs : List Bytes) (iv : Bytes),
    iv.length = 16 → Full cs → chainL (C.enc key) iv (unchainL (C.dec key) iv cs) = cs
  | [], _, _, _ => rfl
  | c :: cs, iv, hi, hf => by
      have hc : c.length = 16 := hf c (by simp)
      have hd := h.decLen _ hc
      simp only [chainL, unchainL]
      rw [xor_xor (by omega), h.encDec _ hc, chain_unchain h cs _ hc (fun y hy => hf y (by simp [hy]))]

theorem pad_length (m : Bytes) : (pad m).length % 16 = 0 ∧ (pad m).length ≤ m.length + 16 ∧ pad m ≠ [] := by
  have hl : (pad m).length = m.length + (16 - m.length % 16) := by simp [pad]
  refine ⟨by omega, by omega, ?_⟩
  intro h; rw [h] at hl; simp at hl; omega

theorem unpad_pad (m : Bytes) : unpad (pad m) = some m := by
  obtain ⟨k, hk⟩ : ∃ k, 16 - m.length % 16 = k := ⟨_, rfl⟩
  have h1 : 0 < k ∧ k ≤ 16 := by omega
  have hn : (UInt8.ofNat k).toNat = k := by simp; omega
  have hlast : (pad m).getLast?.getD 0 = UInt8.ofNat k := by
    unfold pad
    rw [hk, List.getLast?_append]
    cases k with
    | zero => omega
    | succ k => simp [List.getLast?_replicate]
  have hlen : (pad m).length - k = m.length := by simp [pad, hk]
  unfold unpad
  simp only [hlast, hn, hlen]
  have hd : (pad m).drop m.length = List.replicate k (UInt8.ofNat k) := by simp [pad, hk]
  have ht : (pad m).take m.length = m := by simp [pad]
  rw [hd, ht, if_neg]
  simp; omega

/-- The padding that is accepted is the padding that is written. -/
theorem unpad_some {p m : Bytes} (h16 : p.length % 16 = 0) (hne : p ≠ []) (h : unpad p = some m) : p = pad m := by
  unfold unpad at h
  simp only at h
  generalize hn : (p.getLast?.getD 0).toNat = n at h
  split at h
  · simp at h
  · rename_i hc
    have hc' : n ≠ 0 ∧ n ≤ 16 ∧ p.drop (p.length - n) = List.replicate n (UInt8.ofNat n) := by
      refine ⟨fun e => hc (.inl e), ?_, ?_⟩
      · exact Nat.le_of_not_lt fun e => hc (.inr (.inl e))
      · exact Classical.byContradiction fun e => hc (.inr (.inr e))
    simp only [Option.some.injEq] at h
    have hp : 0 < p.length := List.length_pos_iff.2 hne
    have hml : m.length = p.length - n := by rw [← h, List.length_take]; omega
    have hk : 16 - m.length % 16 = n := by omega
    unfold pad
    rw [hk, ← hc'.2.2, ← h, List.take_append_drop]

/-- Decryption of the raw data accepts exactly what encryption of the text gives. -/
theorem uncbc_iff {C : Cipher} {key iv c m : Bytes} (h : CipherOK C key) (hi : iv.length = 16) :
    uncbc C key iv c = some m ↔ c = cbc C key iv m := by
  constructor
  · intro hu
    unfold uncbc at hu
    split at hu
    · simp at hu
    · rename_i hc
      have h0 : c.length ≠ 0 := fun e => hc (.inl e)
      have h16 : c.length % 16 = 0 := Classical.byContradiction fun e => hc (.inr e)
      have hfull := blocks_full c.length c (Nat.le_refl _) h16
      rw [unchain_flatten] at hu
      have hpf := unchainL_full h (blocks c.length c) iv hi hfull
      have len16 : ∀ bs : List Bytes, Full bs → bs.flatten.length = 16 * bs.length := by
        intro bs
        induction bs with
        | nil => intro _; rfl
        | cons b bs ih =>
          intro hb
          rw [List.flatten_cons, List.length_append, ih (fun x hx => hb x (by simp [hx])), hb b (by simp), List.length_cons]
          omega
      have lenU : ∀ (cs : List Bytes) (iv : Bytes), (unchainL (C.dec key) iv cs).length = cs.length := by
        intro cs
        induction cs with
        | nil => intro _; rfl
        | cons c cs ih => intro iv; simp [unchainL, ih]
      have hcl : c.length = 16 * (blocks c.length c).length := by
        conv => lhs; rw [← blocks_flatten c.length c (Nat.le_refl _)]
        exact len16 _ hfull
      have hpl := len16 _ hpf
      rw [lenU] at hpl
      have hpad := unpad_some (by rw [hpl]; omega) (by intro e; rw [e] at hpl; simp at hpl; omega) hu
      unfold cbc
      rw [← hpad, blocks_of_flatten _ _ hpf, chain_flatten, chain_unchain h _ _ hi hfull,
        blocks_flatten _ _ (Nat.le_refl _)]
      rw [hpad]; exact (pad_length m).2.1
  · rintro rfl
    have hp := pad_length m
    have hfull := blocks_full (m.length + 16) (pad m) hp.2.1 hp.1
    unfold cbc
    rw [chain_flatten]
    have hcf := chainL_full h _ iv hi hfull
    unfold uncbc
    rw [blocks_of_flatten _ _ hcf (Nat.le_refl _), unchain_flatten, unchain_chain h _ _ hi hfull,
      blocks_flatten _ _ hp.2.1, unpad_pad, if_neg]
    have len16 : ∀ bs : List Bytes, Full bs → bs.flatten.length = 16 * bs.length := by
      intro bs
      induction bs with
      | nil => intro _; rfl
      | cons b bs ih =>
        intro hb
        rw [List.flatten_cons, List.length_append, ih (fun x hx => hb x (by simp [hx])), hb b (by simp), List.length_cons]
        omega
    have hne : chainL (C.enc key) iv (blocks (m.length + 16) (pad m)) ≠ [] := by
      cases hp' : pad m with
      | nil => exact absurd hp' hp.2.2
      | cons c s => simp [blocks, chainL]
    have := List.length_pos_iff.2 hne
    rw [len16 _ hcf]
    omega

theorem cut_iff (text a b : Bytes) :
    cut text = some (a, b) ↔ text = a ++ c!"?iv=" ++ b ∧
      ∀ a' b', text = a' ++ c!"?iv=" ++ b' → a.length ≤ a'.length := by
  have first : ∀ (t x y : Bytes), cut t = some (x, y) → t = x ++ c!"?iv=" ++ y := by
    intro t
    induction t with
    | nil => intro x y h; simp [cut] at h
    | cons c s ih =>
      intro x y h
      unfold cut at h
      split at h
      · rename_i ht
        simp only [Option.some.injEq, Prod.mk.injEq] at h
        rw [← h.1, ← h.2, List.nil_append, ← ht, List.take_append_drop]
      · cases hc : cut s with
        | none => rw [hc] at h; simp at h
        | some p =>
          rw [hc] at h
          simp only [Option.map_some, Option.some.injEq, Prod.mk.injEq] at h
          rw [← h.1, ← h.2, ih p.1 p.2 hc]
          rfl
  have least : ∀ (t a' b' : Bytes), t = a' ++ c!"?iv=" ++ b' → ∃ x y, cut t = some (x, y) ∧ x.length ≤ a'.length := by
    intro t
    induction t with
    | nil => intro a' b' h; simp at h
    | cons c s ih =>
      intro a' b' h
      unfold cut
      split
      · exact ⟨_, _, rfl, by simp⟩
      · rename_i hn
        cases a' with
        | nil => exfalso; apply hn; rw [h]; rfl
        | cons d a' =>
          simp only [List.cons_append, List.cons.injEq] at h
          obtain ⟨x, y, hc, hl⟩ := ih a' b' h.2
          exact ⟨c :: x, y, by rw [hc]; rfl, by simpa using hl⟩
  constructor
  · intro h
    refine ⟨first _ _ _ h, fun a' b' h' => ?_⟩
    obtain ⟨x, y, hc, hl⟩ := least _ _ _ h'
    rw [h] at hc
    simp only [Option.some.injEq, Prod.mk.injEq] at hc
    rw [hc.1]; exact hl
  · rintro ⟨h, hm⟩
    obtain ⟨x, y, hc, hl⟩ := least _ _ _ h
    have hf := first _ _ _ hc
    have hlen := hm x y hf
    have : a.length = x.length := by omega
    rw [h, List.append_assoc, List.append_assoc] at hf
    obtain ⟨h1, h2⟩ := List.append_inj hf this
    rw [hc, h1, List.append_cancel_left h2]

theorem cut_plain (a b : Bytes) (h : 0x3f ∉ a) : cut (a ++ c!"?iv=" ++ b) = some (a, b) := by
  rw [cut_iff]
  refine ⟨rfl, fun a' b' he => Nat.le_of_not_lt fun hl => h ?_⟩
  rw [List.append_assoc, List.append_assoc] at he
  obtain ⟨t, ht⟩ : ∃ t, a = a' ++ t := by
    refine ⟨a.drop a'.length, ?_⟩
    have := congrArg (List.take a'.length) he
    rw [List.take_append_of_le_length (by omega), List.take_left] at this
    conv => lhs; rw [← List.take_append_drop a'.length a, this]
  subst ht
  rw [List.append_assoc] at he
  have he' := List.append_cancel_left he
  cases t with
  | nil => simp at hl
  | cons x t =>
    simp only [List.cons_append, List.cons.injEq] at he'
    rw [he'.1]; simp

/-! ## C126 round trip -/

theorem chain_length (g : Bytes → Bytes) (hg : ∀ b, b.length = 16 → (g b).length = 16) : ∀ (bs : List Bytes) (iv : Bytes),
    iv.length = 16 → Full bs → (chain g iv bs).length = bs.flatten.length
  | [], _, _, _ => by simp [chain]
  | b :: bs, iv, hi, hf => by
      have hb := hf b (by simp)
      have hx : (g (xor b iv)).length = 16 := hg _ (by rw [xor_length (by omega)]; exact hb)
      simp only [chain, List.length_append, List.flatten_cons]
      rw [chain_length g hg bs _ hx (fun c hc => hf c (by simp [hc])), hx, hb]

/-- The encrypted text: the next multiple of 16. -/
theorem cbc_length {C : Cipher} {key iv m : Bytes} (hC : CipherOK C key) (hi : iv.length = 16) :
    (cbc C key iv m).length = m.length + (16 - m.length % 16) := by
  have hp : (pad m).length = m.length + (16 - m.length % 16) := by simp [pad]
  unfold cbc
  rw [chain_length _ hC.encLen _ _ hi (blocks_full _ _ (by omega) (by omega)), blocks_flatten _ _ (by omega), hp]

/-- What is encrypted, whatever its length, decrypts to as much of the text as the lowest 32 bits of the length say. -/
theorem decrypts (C : Cipher) (B : Codec) (hB : CodecOK B) (zero : Bool) (key iv m : Bytes) (hC : CipherOK C key)
    (hi : iv.length = 16) (hm : m.length % 2 ^ 32 < limit) :
    ∃ text, encrypt C B (some key) (some iv) m = .ok text ∧
      decrypt C B zero (some key) text = .ok (m.take (m.length % 2 ^ 32)) := by
  refine ⟨_, by simp only [encrypt]; rw [if_neg (by omega)], ?_⟩
  generalize hn : m.take (m.length % 2 ^ 32) = n
  have hl : n.length < limit := by
    rw [← hn, List.length_take]; omega
  have hne : cbc C key iv n ≠ [] := by
    intro e
    have := (uncbc_iff (c := cbc C key iv n) (m := n) hC hi).2 rfl
    rw [e] at this; simp [uncbc] at this
  have hcl : (cbc C key iv n).length ≤ limit := by
    rw [cbc_length hC hi]
    simp only [limit] at hl ⊢
    omega
  have hiv : iv ≠ [] := by intro e; rw [e] at hi; simp at hi
  have dec : ∀ x, x ≠ [] → x.length ≤ limit → decode B zero (B.enc x) = .data x := by
    intro x hx hl
    unfold decode
    rw [if_neg (by intro e; exact hB.full x hx (List.eq_nil_of_length_eq_zero e.1)), hB.inv x hx hl]
    cases x with
    | nil => exact absurd rfl hx
    | cons c s => rfl
  unfold decrypt
  rw [cut_plain _ _ (hB.plain _)]
  simp only [dec _ hne hcl, dec _ hiv (by rw [hi]; decide), hi, ne_eq, not_true_eq_false, if_false, (uncbc_iff hC hi).2 rfl]

/-- **C126** (part; missing: texts of 1610612704 bytes and more). What one party encrypts, the other decrypts to the same text, for every shorter text (also the empty one),
every random vector and every block cipher: the two have the same shared secret (C124). -/
theorem C126_roundtrip_partial (C : Cipher) (B : Codec) (hB : CodecOK B) (zero : Bool) (key iv m : Bytes) (hC : CipherOK C key)
    (hi : iv.length = 16) (hm : m.length < 1610612704) :
    ∃ text, encrypt C B (some key) (some iv) m = .ok text ∧ decrypt C B zero (some key) text = .ok m := by
  have h := decrypts C B hB zero key iv m hC hi (by rw [Nat.mod_eq_of_lt (by omega)]; exact hm)
  rw [Nat.mod_eq_of_lt (by omega), List.take_length] at h
  exact h

/-- **C126 refuted for long texts.** A text of 2^32 bytes and a few more is encrypted with success, but only its first few
bytes are: the message decrypts, with success, to these. A text of exactly 2^32 bytes decrypts to the empty text. -/
theorem C126_long_refuted (C : Cipher) (B : Codec) (hB : CodecOK B) (zero : Bool) (key iv m : Bytes) (k : Nat) (hC : CipherOK C key)
    (hi : iv.length = 16) (hk : k < 1610612704) (hm : m.length = 2 ^ 32 + k) :
    ∃ text, encrypt C B (some key) (some iv) m = .ok text ∧ decrypt C B zero (some key) text = .ok (m.take k) ∧ m.take k ≠ m := by
  have hmod : m.length % 2 ^ 32 = k := by rw [hm]; omega
  obtain ⟨text, h1, h2⟩ := decrypts C B hB zero key iv m hC hi (by rw [hmod]; exact hk)
  rw [hmod] at h2
  refine ⟨text, h1, h2, fun e => ?_⟩
  have := congrArg List.length e
  rw [List.length_take] at this
  omega

/-- **C126 (failures).** Without a shared secret or random bytes nothing is produced. -/
theorem C126_failures (C : Cipher) (B : Codec) (secret iv : Option Bytes) (m : Bytes) :
    (secret = none → encrypt C B secret iv m = .err .invalidKey) ∧
    (∀ key, secret = some key → iv = none → encrypt C B secret iv m = .err .memory) := by
  constructor
  · rintro rfl; rfl
  · rintro key rfl rfl; rfl

/-! ## C127 authenticity -/

/-- **C127 (what is accepted).** Decryption succeeds with the text `m` exactly for texts that are split by
their first `?iv=` into base64 of 16 bytes and base64 of the encryption of `m` under the shared secret and
these 16 bytes. -/
theorem C127_accepts_partial (C : Cipher) (B : Codec) (zero : Bool) (key text m : Bytes) (hC : CipherOK C key) :
    decrypt C B zero (some key) text = .ok m ↔
      ∃ a b iv, text = a ++ c!"?iv=" ++ b ∧ (∀ a' b', text = a' ++ c!"?iv=" ++ b' → a.length ≤ a'.length) ∧
        decode B zero a = .data (cbc C key iv m) ∧ decode B zero b = .data iv ∧ iv.length = 16 := by
  constructor
  · intro h
    unfold decrypt at h
    cases hc : cut text with
    | none => rw [hc] at h; simp at h
    | some p =>
      obtain ⟨a, b⟩ := p
      rw [hc] at h
      obtain ⟨h1, h2⟩ := (cut_iff _ _ _).1 hc
      refine ⟨a, b, ?_⟩
      cases ha : decode B zero a <;> cases hb : decode B zero b <;> simp only [ha, hb] at h <;> try (simp at h; done)
      · rename_i c iv
        split at h
        · simp at h
        · rename_i hl
          have hl' : iv.length = 16 := Classical.byContradiction hl
          cases hu : uncbc C key iv c with
          | none => rw [hu] at h; simp at h
          | some m' =>
            rw [hu] at h
            simp only [Res.ok.injEq] at h
            subst h
            have := (uncbc_iff hC hl').1 hu
            exact ⟨iv, h1, h2, by rw [this], rfl, hl'⟩
  · rintro ⟨a, b, iv, h1, h2, h3, h4, h5⟩
    unfold decrypt
    rw [(cut_iff _ _ _).2 ⟨h1, h2⟩]
    simp only [h3, h4, h5, ne_eq, not_true_eq_false, if_false, (uncbc_iff hC h5).2 rfl]

/-- **C127 refuted.** Nothing authenticates a message: whoever can change the text in transit can change every
bit of the first 16 bytes of the plaintext, without the key. For every message of at least 16 bytes and
every mask, the text with the masked vector decrypts to the masked message. -/
theorem C127_tamper_refuted (C : Cipher) (B : Codec) (hB : CodecOK B) (zero : Bool) (key iv m mask : Bytes)
    (hC : CipherOK C key) (hi : iv.length = 16) (hk : mask.length = 16) (hm : 16 ≤ m.length) (hlen : m.length < 1610612704) :
    ∃ content, encrypt C B (some key) (some iv) m = .ok (content ++ c!"?iv=" ++ B.enc iv) ∧
      decrypt C B zero (some key) (content ++ c!"?iv=" ++ B.enc (xor iv mask)) =
        .ok (xor (m.take 16) mask ++ m.drop 16) := by
  refine ⟨B.enc (cbc C key iv m), by
    simp only [encrypt]
    rw [Nat.mod_eq_of_lt (by omega), List.take_length, if_neg (by simp only [limit]; omega)], ?_⟩
  have hcl : (cbc C key iv m).length ≤ limit := by
    rw [cbc_length hC hi]
    simp only [limit]
    omega
  have hx : (xor iv mask).length = 16 := by rw [xor_length (by omega)]; exact hi
  have ht : (m.take 16).length = 16 := by rw [List.length_take]; omega
  have hml : (xor (m.take 16) mask ++ m.drop 16).length = m.length := by
    rw [List.length_append, xor_length (by omega), ht, List.length_drop]; omega
  -- both texts have the same encryption
  have same : cbc C key iv m = cbc C key (xor iv mask) (xor (m.take 16) mask ++ m.drop 16) := by
    have blk : ∀ (f : Nat) (x r : Bytes), x.length = 16 → blocks (f + 1) (x ++ r) = x :: blocks f r := by
      intro f x r hx
      cases x with
      | nil => simp at hx
      | cons c x =>
        show blocks (f + 1) (c :: (x ++ r)) = _
        rw [blocks]
        have h1 : (c :: (x ++ r)).take 16 = c :: x := by
          show (c :: x ++ r).take 16 = _
          rw [← hx, List.take_left]
        have h2 : (c :: (x ++ r)).drop 16 = r := by
          show (c :: x ++ r).drop 16 = _
          rw [← hx, List.drop_left]
        rw [h1, h2]
    have p1 : pad m = m.take 16 ++ (m.drop 16 ++ List.replicate (16 - m.length % 16) (UInt8.ofNat (16 - m.length % 16))) := by
      unfold pad
      rw [← List.append_assoc, List.take_append_drop]
    have p2 : pad (xor (m.take 16) mask ++ m.drop 16) =
        xor (m.take 16) mask ++ (m.drop 16 ++ List.replicate (16 - m.length % 16) (UInt8.ofNat (16 - m.length % 16))) := by
      unfold pad
      rw [hml, List.append_assoc]
    unfold cbc
    rw [hml, p1, p2, blk _ (m.take 16) _ ht, blk _ (xor (m.take 16) mask) _ (by rw [xor_length (by omega)]; exact ht)]
    simp only [chain]
    have key16 : xor (xor (m.take 16) mask) (xor iv mask) = xor (m.take 16) iv := by
      have comm : ∀ a b : Bytes, xor a b = xor b a := by
        intro a b
        unfold xor
        rw [List.zipWith_comm]
        congr 1
        funext x y
        exact UInt8.xor_comm _ _
      rw [comm iv mask, xor_swap (by rw [xor_length (by omega)]; omega) (by omega), xor_xor (by omega)]
    rw [key16]
  have hne : cbc C key iv m ≠ [] := by
    intro e
    have := (uncbc_iff (c := cbc C key iv m) (m := m) hC hi).2 rfl
    rw [e] at this; simp [uncbc] at this
  have hxne : xor iv mask ≠ [] := by intro e; rw [e] at hx; simp at hx
  have dec : ∀ x, x ≠ [] → x.length ≤ limit → decode B zero (B.enc x) = .data x := by
    intro x hx hl
    unfold decode
    rw [if_neg (by intro e; exact hB.full x hx (List.eq_nil_of_length_eq_zero e.1)), hB.inv x hx hl]
    cases x with
    | nil => exact absurd rfl hx
    | cons c s => rfl
  unfold decrypt
  rw [cut_plain _ _ (hB.plain _)]
  simp only [dec _ hne hcl, dec _ hxne (by rw [hx]; decide), hx, ne_eq, not_true_eq_false, if_false]
  rw [same, (uncbc_iff hC hx).2 rfl]

/-! ## C128 memory -/

/-- **C128 (exactly).** Decryption runs into undefined behaviour exactly if one of the two parts decodes to no
data (and, for the vector, the content did not fail before). -/
theorem C128_exact (C : Cipher) (B : Codec) (zero : Bool) (secret : Option Bytes) (text : Bytes) :
    decrypt C B zero secret text = .ub ↔
      ∃ a b, cut text = some (a, b) ∧
        (decode B zero a = .released ∨ (decode B zero a ≠ .null ∧ decode B zero b = .released)) := by
  unfold decrypt
  cases hc : cut text with
  | none => simp
  | some p =>
    obtain ⟨a, b⟩ := p
    simp only [Option.some.injEq, Prod.mk.injEq]
    have : (∃ a' b', (a = a' ∧ b = b') ∧
        (decode B zero a' = .released ∨ (decode B zero a' ≠ .null ∧ decode B zero b' = .released))) ↔
        (decode B zero a = .released ∨ (decode B zero a ≠ .null ∧ decode B zero b = .released)) := by
      constructor
      · rintro ⟨_, _, ⟨rfl, rfl⟩, h⟩; exact h
      · intro h; exact ⟨a, b, ⟨rfl, rfl⟩, h⟩
    rw [this]
    cases ha : decode B zero a <;> cases hb : decode B zero b <;> simp
    all_goals
      repeat' split
      all_goals simp

/-- **C128 refuted.** A received text that begins with `?iv=`, whatever follows, makes decryption release memory
twice: the empty content decodes to no data, its buffer is released in the decoder and again at the end.
Any sender can send such a message. -/
theorem C128_double_free_refuted (C : Cipher) (B : Codec) (hB : B.read [] = some []) (secret : Option Bytes) (s : Bytes) :
    decrypt C B true secret (c!"?iv=" ++ s) = .ub := by
  rw [C128_exact]
  refine ⟨[], s, cut_plain [] s (by simp), .inl ?_⟩
  simp [decode, hB]

/-- **C128 (part that holds).** Memory is safe for every text both parts of which decode to some data or make
the decoder fail with a negative result. -/
theorem C128_safe_partial (C : Cipher) (B : Codec) (zero : Bool) (secret : Option Bytes) (text : Bytes)
    (h : ∀ a b, cut text = some (a, b) → B.read a ≠ some [] ∧ B.read b ≠ some []) :
    decrypt C B zero secret text ≠ .ub := by
  intro hu
  obtain ⟨a, b, hc, h'⟩ := (C128_exact C B zero secret text).1 hu
  obtain ⟨h1, h2⟩ := h a b hc
  have key : ∀ x, decode B zero x = .released → B.read x = some [] := by
    intro x hx
    unfold decode at hx
    split at hx
    · simp at hx
    · split at hx <;> first | (simp at hx; done) | assumption
  rcases h' with h' | ⟨_, h'⟩
  · exact h1 (key a h')
  · exact h2 (key b h')

/-! ## Concrete cases -/

/-- A toy cipher: every byte plus the first of the key, reversed. -/
def toy : Cipher := ⟨fun k b => (b.map (· + k.headD 0)).reverse, fun k b => (b.reverse).map (· - k.headD 0)⟩

theorem toy_ok (key : Bytes) : CipherOK toy key where
  encLen b h := by simp [toy, h]
  decLen b h := by simp [toy, h]
  decEnc b h := by
    simp only [toy, List.reverse_reverse, List.map_map]
    conv => rhs; rw [← List.map_id b]
    congr 1; funext x; simp
  encDec b h := by
    simp only [toy, List.map_map]
    rw [← List.map_reverse, List.reverse_reverse]
    conv => rhs; rw [← List.map_id b]
    congr 1; funext x; simp

/-- Standard base64. -/
def std : Codec := ⟨Base64.enc, Base64.dec⟩

theorem std_ok : CodecOK std where
  inv x _ _ := Base64.dec_enc x
  full x hx h := by
    have := Base64.enc_length x
    rw [show Base64.enc x = [] from h] at this
    have hl := List.length_pos_iff.2 hx
    simp only [List.length_nil] at this
    omega
  plain x h := by
    rcases Base64.enc_chars x _ h with h | h
    · exact absurd h (by decide +kernel)
    · exact absurd h (by decide)

/-- A text whose 16 bytes of vector are all 7, with the toy cipher under the key 5. -/
example : encrypt toy std (some [5]) (some (List.replicate 16 7)) c!"pay 100 sats to bob" =
    .ok c!"LG14LHl4a3ksPDw7LINrfHZrkyY7NjYmeWt6eSYfB1M=?iv=BwcHBwcHBwcHBwcHBwcHBw==" := by decide +kernel

/-- Its decryption, and that of the text with one byte of the vector changed by eight: another message,
accepted. -/
example : decrypt toy std true (some [5])
      c!"LG14LHl4a3ksPDw7LINrfHZrkyY7NjYmeWt6eSYfB1M=?iv=BwcHBwcHBwcHBwcHBwcHBw==" = .ok c!"pay 100 sats to bob" ∧
    decrypt toy std true (some [5])
      c!"LG14LHl4a3ksPDw7LINrfHZrkyY7NjYmeWt6eSYfB1M=?iv=BwcHBw8HBwcHBwcHBwcHBw==" = .ok c!"pay 900 sats to bob" := by
  decide +kernel

/-- The hypotheses of the round trip are met. -/
example : ∃ text, encrypt toy std (some [5]) (some (List.replicate 16 7)) [] = .ok text ∧
    decrypt toy std true (some [5]) text = .ok [] :=
  C126_roundtrip_partial toy std std_ok true [5] _ [] (toy_ok _) (by simp) (by decide)

/-- A text of 2^32 + 5 bytes is sent as five. -/
example : ∃ text, encrypt toy std (some [5]) (some (List.replicate 16 7)) (List.replicate (2 ^ 32 + 5) 0x61) = .ok text ∧
    decrypt toy std true (some [5]) text = .ok c!"aaaaa" := by
  obtain ⟨text, h1, h2, -⟩ := C126_long_refuted toy std std_ok true [5] (List.replicate 16 7) (List.replicate (2 ^ 32 + 5) 0x61) 5 (toy_ok _)
    (by simp) (by decide) (by rw [List.length_replicate])
  exact ⟨text, h1, by rw [h2, List.take_replicate]; rfl⟩

/-- The malicious text, for the standard base64. -/
example : decrypt toy std true (some [5]) c!"?iv=BwcHBwcHBwcHBwcHBwcHBw==" = .ub :=
  C128_double_free_refuted toy std rfl _ _

/-- A text that meets the hypothesis of the partial safety theorem. -/
example : decrypt toy std true none c!"LG14?iv=AAAA" ≠ .ub :=
  C128_safe_partial _ _ _ _ _ (by
    intro a b h
    have hc : cut c!"LG14?iv=AAAA" = some (c!"LG14", c!"AAAA") := by decide +kernel
    rw [hc] at h
    simp only [Option.some.injEq, Prod.mk.injEq] at h
    rw [← h.1, ← h.2]
    decide +kernel)

end Nostr.Nip04.Props
