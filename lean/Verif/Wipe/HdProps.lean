import Verif.Wipe.Hd
import Verif.Wipe.Spec

/-! # Property theorems: what deriving keys leaves in memory (C161) -/

namespace Nostr.Wipe.Hd.Props
open Nostr Nostr.Text Nostr.Wipe Nostr.Wipe.Hd Nostr.Wipe.Spec
open Nostr.Hd (Crypto HdKey htonl memory4 component)

/-! ## Sizes -/

/-- The sizes of the buffers; `n` is 32 with noscrypt and 96 with secp256k1. -/
def Frame.Sized (n : Nat) (f : Frame) : Prop :=
  f.hash.length = 64 ∧ f.data.length = 37 ∧ f.priv.length = 32 ∧ f.last.length = n ∧ f.pub.length = 32

def KeySized (k : HdKey) : Prop := k.priv.length = 32 ∧ k.pub.length = 32 ∧ k.chain.length = 32

/-- The sizes of what the libraries deliver. -/
structure Sizes (C : Crypto) : Prop where
  hmac : ∀ k d h, C.hmac512 k d = some h → h.length = 64
  compressed : ∀ k c, C.pubCompressed k = some c → c.length = 33
  tweak : ∀ k t c, C.tweakAdd k t = some c → c.length = 32
  xonly : ∀ k p, C.xonly k = some p → p.length = 32

/-- A wiped key. -/
def zeroKey : HdKey := ⟨List.replicate 32 0, List.replicate 32 0, List.replicate 32 0⟩

theorem blank_eq {k : HdKey} (h : KeySized k) : blank k = zeroKey := by
  obtain ⟨h1, h2, h3⟩ := h
  simp only [blank, zeroKey, wipe_all h1.symm, wipe_all h2.symm, wipe_all h3.symm, h1, h2, h3]

theorem blank_sized {k : HdKey} (h : KeySized k) : KeySized (blank k) := by
  rw [blank_eq h]; simp [KeySized, zeroKey]

theorem memory4_length (v : Nat) : (memory4 v).length = 4 := rfl

/-! ## The master key -/

/-- What a call that fails leaves in the caller's key: what was there, or zeros. -/
def KeyClean (before after : HdKey) : Prop := after = before ∨ after = zeroKey

theorem zero_sized : KeySized zeroKey := by simp [KeySized, zeroKey]

theorem seed_secp_all {C : Crypto} {pair : Bytes → Option Bytes} {f : Frame} {master : HdKey} {seed : Bytes} (hC : Sizes C) (hf : Frame.Sized 96 f)
    (hm : KeySized master) (hk : ∀ k p, pair k = some p → p.length = 96) (hp : ∀ k, pair k = none → C.xonly k = none) :
    let o := fromSeedSecp C pair f master seed;
    Clean [] f.dead o.frame.dead ∧ (o.res ≠ .ok () → KeyClean master o.key) ∧ Nostr.Hd.fromSeed C seed = (o.res >>= fun _ => .ok o.key) ∧
      Frame.Sized 96 o.frame ∧ KeySized o.key := by
  obtain ⟨f1, f2, f3, f4, f5⟩ := hf
  unfold fromSeedSecp Nostr.Hd.fromSeed
  by_cases hs : seed.length < 16 ∨ seed.length > 64
  · rw [if_pos hs, if_pos hs]
    exact ⟨Clean.refl _, fun _ => .inl rfl, rfl, ⟨f1, f2, f3, f4, f5⟩, hm⟩
  · rw [if_neg hs, if_neg hs]
    simp only [blank_eq hm]
    cases hh : C.hmac512 (c!"Bitcoin seed") seed with
    | none => exact ⟨Clean.refl _, fun _ => .inr rfl, rfl, ⟨f1, f2, f3, f4, f5⟩, zero_sized⟩
    | some h =>
      have l1 := hC.hmac _ _ _ hh
      have e1 : over 0 h f.hash = h := over_all (by omega)
      have e2 : over 0 (h.take 32) zeroKey.priv = h.take 32 := over_all (by simp [zeroKey]; omega)
      have e3 : over 0 ((h.drop 32).take 32) zeroKey.chain = (h.drop 32).take 32 := over_all (by simp [zeroKey]; omega)
      have e4 : wipe 64 h = List.replicate f.hash.length 0 := by rw [wipe_all l1.symm, l1, f1]
      have sz : ∀ p : Bytes, p.length = 32 → KeySized ⟨h.take 32, p, (h.drop 32).take 32⟩ := by
        intro p hp; simp [KeySized, hp]; omega
      simp only [e1, e2, e3]
      cases hq : pair (h.take 32) with
      | none =>
        simp only [hp _ hq, blank_eq (sz zeroKey.pub (by simp [zeroKey]))]
        exact ⟨by simp [Frame.dead, Clean, e4], fun _ => .inr rfl, rfl, ⟨by rw [e4]; simpa using f1, f2, f3, f4, f5⟩, zero_sized⟩
      | some kp =>
        have w := wipe_over (n := 96) (off := 0) (d := kp) (b := f.last) (by have := hk _ _ hq; omega) (by omega)
        cases hx : C.xonly (h.take 32) with
        | none =>
          simp only [blank_eq (sz zeroKey.pub (by simp [zeroKey]))]
          exact ⟨by simp [Frame.dead, Clean, e4, w], fun _ => .inr rfl, rfl, ⟨by rw [e4]; simpa using f1, f2, f3, by rw [w]; simpa using f4, f5⟩, zero_sized⟩
        | some pk =>
          have e5 : over 0 pk zeroKey.pub = pk := over_all (by simp [zeroKey, hC.xonly _ _ hx])
          simp only [e5]
          exact ⟨by simp [Frame.dead, Clean, e4, w], fun h => absurd rfl h, rfl, ⟨by rw [e4]; simpa using f1, f2, f3, by rw [w]; simpa using f4, f5⟩, sz _ (hC.xonly _ _ hx)⟩

/-- C161, secp256k1: deriving the master key. When the call returns, the local buffers are wiped or were never written, and if it
fails the caller's key is too. The outcome is that of the value model. -/
theorem C161_seed_secp {C : Crypto} {pair : Bytes → Option Bytes} {f : Frame} {master : HdKey} {seed : Bytes} (hC : Sizes C) (hf : Frame.Sized 96 f)
    (hm : KeySized master) (hk : ∀ k p, pair k = some p → p.length = 96) (hp : ∀ k, pair k = none → C.xonly k = none) :
    let o := fromSeedSecp C pair f master seed;
    Clean [] f.dead o.frame.dead ∧ (o.res ≠ .ok () → KeyClean master o.key) ∧ Nostr.Hd.fromSeed C seed = (o.res >>= fun _ => .ok o.key) :=
  have h := seed_secp_all (seed := seed) hC hf hm hk hp
  ⟨h.1, h.2.1, h.2.2.1⟩

theorem seed_nc_all {C : Crypto} {f : Frame} {master : HdKey} {seed : Bytes} (hC : Sizes C) (hf : Frame.Sized 32 f) (hm : KeySized master)
    (hp : ∀ h, C.hmac512 c!"Bitcoin seed" seed = some h → C.xonly (h.take 32) ≠ none) :
    let o := fromSeedNc C f master seed;
    Clean [o.key.pub] f.dead o.frame.dead ∧ (o.res ≠ .ok () → KeyClean master o.key) ∧ Nostr.Hd.fromSeed C seed = (o.res >>= fun _ => .ok o.key) ∧
      Frame.Sized 32 o.frame ∧ KeySized o.key := by
  obtain ⟨f1, f2, f3, f4, f5⟩ := hf
  unfold fromSeedNc Nostr.Hd.fromSeed
  by_cases hs : seed.length < 16 ∨ seed.length > 64
  · rw [if_pos hs, if_pos hs]
    exact ⟨Clean.refl _, fun _ => .inl rfl, rfl, ⟨f1, f2, f3, f4, f5⟩, hm⟩
  · rw [if_neg hs, if_neg hs]
    simp only [blank_eq hm]
    cases hh : C.hmac512 (c!"Bitcoin seed") seed with
    | none => exact ⟨Clean.refl _, fun _ => .inr rfl, rfl, ⟨f1, f2, f3, f4, f5⟩, zero_sized⟩
    | some h =>
      have l1 := hC.hmac _ _ _ hh
      have e1 : over 0 h f.hash = h := over_all (by omega)
      have e2 : over 0 (h.take 32) zeroKey.priv = h.take 32 := over_all (by simp [zeroKey]; omega)
      have e3 : over 0 ((h.drop 32).take 32) zeroKey.chain = (h.drop 32).take 32 := over_all (by simp [zeroKey]; omega)
      have e4 : wipe 64 h = List.replicate f.hash.length 0 := by rw [wipe_all l1.symm, l1, f1]
      have e6 : over 0 (h.take 32) f.last = h.take 32 := over_all (by rw [List.length_take]; omega)
      have e7 : (h.take 32).take 32 = h.take 32 := by rw [List.take_take, Nat.min_self]
      have e8 : wipe 32 (h.take 32) = List.replicate f.last.length 0 := by
        have : (h.take 32).length = 32 := by rw [List.length_take]; omega
        rw [wipe_all this.symm, this, f4]
      simp only [e1, e2, e3, e6, e7]
      cases hx : C.xonly (h.take 32) with
      | none => exact absurd hx (hp h hh)
      | some pk =>
        have e5 : over 0 pk zeroKey.pub = pk := over_all (by simp [zeroKey, hC.xonly _ _ hx])
        have e9 : over 0 pk f.pub = pk := over_all (by simp [hC.xonly _ _ hx, f5])
        simp only [e5, e9]
        exact ⟨by simp [Frame.dead, Clean, e4, e8], fun h => absurd rfl h, rfl, ⟨by rw [e4]; simpa using f1, f2, f3, by rw [e8]; simpa using f4, hC.xonly _ _ hx⟩,
          ⟨by simp; omega, hC.xonly _ _ hx, by simp; omega⟩⟩

/-- C161, noscrypt: as far as the public key can be computed. -/
theorem C161_seed_partial {C : Crypto} {f : Frame} {master : HdKey} {seed : Bytes} (hC : Sizes C) (hf : Frame.Sized 32 f) (hm : KeySized master)
    (hp : ∀ h, C.hmac512 c!"Bitcoin seed" seed = some h → C.xonly (h.take 32) ≠ none) :
    let o := fromSeedNc C f master seed;
    Clean [o.key.pub] f.dead o.frame.dead ∧ (o.res ≠ .ok () → KeyClean master o.key) ∧ Nostr.Hd.fromSeed C seed = (o.res >>= fun _ => .ok o.key) :=
  have h := seed_nc_all (seed := seed) hC hf hm hp
  ⟨h.1, h.2.1, h.2.2.1⟩

/-- C161 fails with noscrypt: when the public key cannot be computed, which is the case whenever the library is not initialised,
the private key of the master key is left, and nothing else. -/
theorem C161_seed_refuted {C : Crypto} {f : Frame} {master : HdKey} {seed h : Bytes} (hC : Sizes C) (hf : Frame.Sized 32 f) (hm : KeySized master)
    (hs : 16 ≤ seed.length ∧ seed.length ≤ 64) (hh : C.hmac512 c!"Bitcoin seed" seed = some h) (hx : C.xonly (h.take 32) = none) :
    let o := fromSeedNc C f master seed;
    o.res = .err .invalidKey ∧ h.take 32 ∈ o.frame.dead ∧ Clean [h.take 32] f.dead o.frame.dead ∧ KeyClean master o.key := by
  obtain ⟨f1, f2, f3, f4, f5⟩ := hf
  have l1 := hC.hmac _ _ _ hh
  have e1 : over 0 h f.hash = h := over_all (by omega)
  have e2 : over 0 (h.take 32) zeroKey.priv = h.take 32 := over_all (by simp [zeroKey]; omega)
  have e6 : over 0 (h.take 32) f.last = h.take 32 := over_all (by rw [List.length_take]; omega)
  have e7 : (h.take 32).take 32 = h.take 32 := by rw [List.take_take, Nat.min_self]
  unfold fromSeedNc
  rw [if_neg (by omega)]
  have e3 : over 0 ((h.drop 32).take 32) zeroKey.chain = (h.drop 32).take 32 := over_all (by simp [zeroKey]; omega)
  have e4 : wipe 64 h = List.replicate f.hash.length 0 := by rw [wipe_all l1.symm, l1, f1]
  have sz : KeySized ⟨h.take 32, zeroKey.pub, (h.drop 32).take 32⟩ := by simp [KeySized, zeroKey]; omega
  simp only [blank_eq hm, hh, e1, e2, e3, e6, e7, hx, blank_eq sz]
  exact ⟨trivial, by simp [Frame.dead], by simp [Frame.dead, Clean, e4], .inr rfl⟩

/-! ## A child key -/

theorem over_append {d x y : Bytes} : over x.length d (x ++ y) = x ++ (d ++ y.drop d.length) := by
  simp only [over, List.take_left', List.drop_append, List.append_assoc]
  simp

/-- The data of the HMAC. -/
theorem deriveData_eq {C : Crypto} {f : Frame} {parent : HdKey} {index : Nat} (hC : Sizes C) {n : Nat} (hf : Frame.Sized n f) (hp : KeySized parent) :
    deriveData C f parent index = (if index &&& 0x80000000 ≠ 0 then some { f with data := [0] ++ parent.priv ++ memory4 (htonl index) }
      else (C.pubCompressed parent.priv).map fun c => { f with data := c ++ memory4 (htonl index) }) := by
  obtain ⟨f1, f2, f3, f4, f5⟩ := hf
  obtain ⟨p1, p2, p3⟩ := hp
  unfold deriveData
  split
  · simp only
    congr 2
    have h1 : over 0 [0] f.data = [0] ++ f.data.drop 1 := rfl
    have h2 := over_append (x := [0]) (d := parent.priv) (y := f.data.drop 1)
    have h3 := over_append (x := [0] ++ parent.priv) (d := memory4 (htonl index)) (y := (f.data.drop 1).drop parent.priv.length)
    simp only [List.length_singleton, List.length_append, p1] at h2 h3
    have e : (((f.data.drop 1).drop 32).drop 4) = [] := List.drop_eq_nil_of_le (by simp; omega)
    rw [h1, h2, ← List.append_assoc, show 33 = 1 + 32 from rfl, h3, memory4_length, e, List.append_nil]
  · cases hc : C.pubCompressed parent.priv with
    | none => rfl
    | some c =>
      have hl := hC.compressed _ _ hc
      simp only [Option.map_some]
      congr 2
      have h1 : over 0 c f.data = c ++ f.data.drop c.length := by simp [over]
      have h3 := over_append (x := c) (d := memory4 (htonl index)) (y := f.data.drop c.length)
      have e : ((f.data.drop 33).drop 4) = [] := List.drop_eq_nil_of_le (by simp; omega)
      rw [hl] at h3
      rw [h1, hl, h3, memory4_length, e, List.append_nil]

/-- What the last part of the derivation does: it wipes everything, and computes the public key. -/
def Finishes (n : Nat) (C : Crypto) (finish : Crypto → Frame → HdKey → Out) : Prop :=
  ∀ f child, Frame.Sized n f → KeySized child → child.pub = List.replicate 32 0 →
    (finish C f child).frame.hash = List.replicate 64 0 ∧ (finish C f child).frame.data = List.replicate 37 0 ∧
    (finish C f child).frame.priv = List.replicate 32 0 ∧
    ((finish C f child).frame.last = f.last ∨ (finish C f child).frame.last = List.replicate n 0) ∧
    ((finish C f child).frame.pub = f.pub ∨ (finish C f child).frame.pub = (finish C f child).key.pub) ∧
    (match C.xonly f.priv with
      | none => (finish C f child).res = .err .invalidKey ∧ (finish C f child).key = child
      | some pk => (finish C f child).res = .ok () ∧ (finish C f child).key = { child with pub := pk })

theorem finishes_nc {C : Crypto} (hC : Sizes C) : Finishes 32 C childNc := by
  intro f child hf hc hz
  obtain ⟨f1, f2, f3, f4, f5⟩ := hf
  obtain ⟨c1, c2, c3⟩ := hc
  have e1 : over 0 f.priv f.last = f.priv := over_all (by omega)
  have e2 : f.priv.take 32 = f.priv := List.take_of_length_le (by omega)
  simp only [childNc, e1, e2]
  cases hx : C.xonly f.priv with
  | none =>
    simp only [wipe_all f1.symm, wipe_all f2.symm, wipe_all f3.symm, f1, f2, f3, true_and, and_self, or_true, true_or]
  | some pk =>
    have hl := hC.xonly _ _ hx
    have e3 : over 0 pk f.pub = pk := over_all (by omega)
    have e4 : over 0 pk child.pub = pk := over_all (by omega)
    simp only [wipe_all f1.symm, wipe_all f2.symm, wipe_all f3.symm, f1, f2, f3, true_and, and_self, or_true, e3, e4]

theorem finishes_secp {C : Crypto} {pair : Bytes → Option Bytes} (hC : Sizes C) (hk : ∀ k p, pair k = some p → p.length = 96)
    (hp : ∀ k, pair k = none → C.xonly k = none) : Finishes 96 C (childSecp pair) := by
  intro f child hf hc hz
  obtain ⟨f1, f2, f3, f4, f5⟩ := hf
  obtain ⟨c1, c2, c3⟩ := hc
  simp only [childSecp]
  cases hq : pair f.priv with
  | none =>
    simp only [hp _ hq, wipe_all f1.symm, wipe_all f2.symm, wipe_all f3.symm, f1, f2, f3, true_and, and_self, true_or]
  | some kp =>
    have e1 : over 0 kp f.last = kp := over_all (by have := hk _ _ hq; omega)
    have e2 := wipe_all (hk _ _ hq).symm
    rw [hk _ _ hq] at e2
    cases hx : C.xonly f.priv with
    | none => simp only [e1, e2, wipe_all f1.symm, wipe_all f2.symm, wipe_all f3.symm, f1, f2, f3, true_and, and_self, or_true, true_or]
    | some pk =>
      have hl := hC.xonly _ _ hx
      have e4 : over 0 pk child.pub = pk := over_all (by omega)
      simp only [e1, e2, e4, wipe_all f1.symm, wipe_all f2.symm, wipe_all f3.symm, f1, f2, f3, true_and, and_self, or_true, true_or]

/-- The whole of `nostr_hd_key_derive`: the buffers, the outcome, and what is in the child. -/
theorem derive_all {n : Nat} {C : Crypto} {finish : Crypto → Frame → HdKey → Out} {f : Frame} {parent child : HdKey} {index : Nat} (hC : Sizes C)
    (hF : Finishes n C finish) (hf : Frame.Sized n f) (hp : KeySized parent) (hc : KeySized child) :
    let o := derive finish C f parent index child;
    Clean [o.key.pub] f.dead o.frame.dead ∧ Frame.Sized n o.frame ∧ KeySized o.key ∧
      Nostr.Hd.derive C parent index = (o.res >>= fun _ => .ok o.key) ∧ o.res ≠ .ub ∧ o.res ≠ .err .invalidParam ∧
      (o.res ≠ .ok () → o.key.pub = List.replicate 32 0) := by
  have hf' := hf
  have hp' := hp
  obtain ⟨f1, f2, f3, f4, f5⟩ := hf
  obtain ⟨p1, p2, p3⟩ := hp
  have zk : KeySized zeroKey := by simp [KeySized, zeroKey]
  -- everything after the data, which is any text of 37 bytes
  have tail : ∀ d : Bytes, d.length = 37 →
      let f0 : Frame := { f with data := d };
      let o : Out := (match C.hmac512 parent.chain f0.data with
        | none =>
          let f := { f0 with data := wipe 37 f0.data }
          ⟨.err .memory, zeroKey, f⟩
        | some h =>
          let f := { f0 with hash := over 0 h f0.hash }
          let child := { zeroKey with chain := over 0 ((f.hash.drop 32).take 32) zeroKey.chain }
          let f := { f with priv := over 0 parent.priv f.priv }
          match C.tweakAdd f.priv (f.hash.take 32) with
          | none =>
            let f := { f with hash := wipe 64 f.hash }
            let f := { f with data := wipe 37 f.data }
            let f := { f with priv := wipe 32 f.priv }
            ⟨.err .invalidKey, child, f⟩
          | some k =>
            let f := { f with priv := over 0 k f.priv }
            let child := { child with priv := over 0 f.priv child.priv }
            finish C f child);
      Clean [o.key.pub] f.dead o.frame.dead ∧ Frame.Sized n o.frame ∧ KeySized o.key ∧
        Nostr.Hd.deriveFinish C parent d = (o.res >>= fun _ => .ok o.key) ∧ o.res ≠ .ub ∧ o.res ≠ .err .invalidParam ∧
        (o.res ≠ .ok () → o.key.pub = List.replicate 32 0) := by
    intro d hd
    simp only [Nostr.Hd.deriveFinish]
    cases hh : C.hmac512 parent.chain d with
    | none =>
      simp only [wipe_all hd.symm, hd]
      refine ⟨⟨.inl rfl, .inr (.inl (by rw [f2])), .inl rfl, .inl rfl, .inl rfl, trivial⟩, ⟨f1, by simp, f3, f4, f5⟩, zk, rfl, by simp, by simp, fun _ => rfl⟩
    | some h =>
      have l1 := hC.hmac _ _ _ hh
      have e1 : over 0 h f.hash = h := over_all (by omega)
      have e3 : over 0 ((h.drop 32).take 32) zeroKey.chain = (h.drop 32).take 32 := over_all (by simp [zeroKey]; omega)
      have e5 : over 0 parent.priv f.priv = parent.priv := over_all (by omega)
      simp only [e1, e3, e5]
      cases ht : C.tweakAdd parent.priv (h.take 32) with
      | none =>
        simp only [wipe_all hd.symm, wipe_all l1.symm, wipe_all p1.symm, hd, l1, p1]
        refine ⟨⟨.inr (.inl (by rw [f1])), .inr (.inl (by rw [f2])), .inr (.inl (by rw [f3])), .inl rfl, .inl rfl, trivial⟩, ⟨by simp, by simp, by simp, f4, f5⟩, ⟨by simp [zeroKey], by simp [zeroKey], by simp; omega⟩, rfl, by simp, by simp, fun _ => rfl⟩
      | some k =>
        have lk := hC.tweak _ _ _ ht
        have e6 : over 0 k parent.priv = k := over_all (by omega)
        have e7 : over 0 k zeroKey.priv = k := over_all (by simp [zeroKey, lk])
        simp only [e6, e7]
        have sc : KeySized { zeroKey with chain := (h.drop 32).take 32, priv := k } := ⟨lk, by simp [zeroKey], by simp; omega⟩
        obtain ⟨g1, g2, g3, g4, g5, g6⟩ := hF { f with data := d, hash := h, priv := k } { zeroKey with chain := (h.drop 32).take 32, priv := k }
          ⟨l1, hd, lk, f4, f5⟩ sc rfl
        generalize finish C _ _ = o at g1 g2 g3 g4 g5 g6 ⊢
        have so : KeySized o.key := by
          cases hx : C.xonly k with
          | none => simp only [hx] at g6; rw [g6.2]; exact sc
          | some pk => simp only [hx] at g6; rw [g6.2]; exact ⟨sc.1, hC.xonly _ _ hx, sc.2.2⟩
        refine ⟨?_, ⟨by simp [g1], by simp [g2], by simp [g3], ?_, ?_⟩, so, ?_, ?_, ?_, ?_⟩
        · refine ⟨.inr (.inl (by rw [g1, f1])), .inr (.inl (by rw [g2, f2])), .inr (.inl (by rw [g3, f3])), ?_, ?_, trivial⟩
          · rcases g4 with g | g
            · exact .inl g
            · exact .inr (.inl (by rw [g, f4]))
          · rcases g5 with g | g
            · exact .inl g
            · exact .inr (.inr (by rw [g]; simp))
        · rcases g4 with g | g
          · rw [g]; exact f4
          · simp [g]
        · rcases g5 with g | g
          · rw [g]; exact f5
          · rw [g]; exact so.2.1
        · cases hx : C.xonly k with
          | none => simp only [hx] at g6 ⊢; rw [g6.1]; rfl
          | some pk => simp only [hx] at g6 ⊢; rw [g6.1, g6.2]; rfl
        · cases hx : C.xonly k with
          | none => simp only [hx] at g6; rw [g6.1]; simp
          | some pk => simp only [hx] at g6; rw [g6.1]; simp
        · cases hx : C.xonly k with
          | none => simp only [hx] at g6; rw [g6.1]; simp
          | some pk => simp only [hx] at g6; rw [g6.1]; simp
        · cases hx : C.xonly k with
          | none => simp only [hx] at g6; rw [g6.2]; exact fun _ => rfl
          | some pk => simp only [hx] at g6; rw [g6.1]; exact fun h => absurd rfl h
  unfold derive Nostr.Hd.derive
  simp only [blank_eq hc, deriveData_eq hC hf' hp']
  by_cases hi : index &&& 0x80000000 ≠ 0
  · simp only [if_pos hi]
    exact tail _ (by simp [p1, memory4_length])
  · simp only [if_neg hi]
    cases hq : C.pubCompressed parent.priv with
    | none => exact ⟨Clean.refl _, ⟨f1, f2, f3, f4, f5⟩, zk, rfl, by simp, by simp, fun _ => rfl⟩
    | some c =>
      simp only [Option.map_some]
      exact tail _ (by simp [hC.compressed _ _ hq, memory4_length])

/-- C161: deriving a child key, with both backends. When the call returns, whether it succeeds or not, the local buffers are wiped,
were never written, or hold the public key of the child. The outcome is that of the value model. -/
theorem C161_child {C : Crypto} {pair : Bytes → Option Bytes} {f g : Frame} {parent child : HdKey} {index : Nat} (hC : Sizes C)
    (hk : ∀ k p, pair k = some p → p.length = 96) (hx : ∀ k, pair k = none → C.xonly k = none) (hf : Frame.Sized 32 f) (hg : Frame.Sized 96 g)
    (hp : KeySized parent) (hc : KeySized child) :
    (let o := derive childNc C f parent index child;
      Clean [o.key.pub] f.dead o.frame.dead ∧ Nostr.Hd.derive C parent index = (o.res >>= fun _ => .ok o.key)) ∧
    let o := derive (childSecp pair) C g parent index child;
    Clean [o.key.pub] g.dead o.frame.dead ∧ Nostr.Hd.derive C parent index = (o.res >>= fun _ => .ok o.key) := by
  have h1 := derive_all (index := index) hC (finishes_nc hC) hf hp hc
  have h2 := derive_all (index := index) hC (finishes_secp hC hk hx) hg hp hc
  exact ⟨⟨h1.1, h1.2.2.2.1⟩, h2.1, h2.2.2.2.1⟩

/-- C161 fails for the key that a failing derivation was to fill: when the tweak is refused, the chain code of the child is in
it. -/
theorem C161_child_refuted {n : Nat} {C : Crypto} {finish : Crypto → Frame → HdKey → Out} {f : Frame} {parent child : HdKey} {index : Nat} {h : Bytes}
    (hC : Sizes C) (hf : Frame.Sized n f) (hp : KeySized parent) (hc : KeySized child) (hi : index &&& 0x80000000 ≠ 0)
    (hh : C.hmac512 parent.chain ([0] ++ parent.priv ++ memory4 (htonl index)) = some h) (ht : C.tweakAdd parent.priv (h.take 32) = none) :
    (derive finish C f parent index child).res = .err .invalidKey ∧ (derive finish C f parent index child).key.chain = h.drop 32 := by
  have hf' := hf
  have hp' := hp
  obtain ⟨f1, f2, f3, f4, f5⟩ := hf
  obtain ⟨p1, p2, p3⟩ := hp
  have l1 := hC.hmac _ _ _ hh
  have e1 : over 0 h f.hash = h := over_all (by omega)
  have e0 : (h.drop 32).take 32 = h.drop 32 := List.take_of_length_le (by simp; omega)
  have e3 : over 0 (h.drop 32) zeroKey.chain = h.drop 32 := over_all (by simp [zeroKey]; omega)
  have e5 : over 0 parent.priv f.priv = parent.priv := over_all (by omega)
  unfold derive
  simp only [blank_eq hc, deriveData_eq hC hf' hp', if_pos hi, hh, e1, e0, e3, e5, ht, and_self]

/-- C161 fails in the same way when the public key of the child cannot be computed: the private key of the child and its chain code
are in it. -/
theorem C161_childKey_refuted {n : Nat} {C : Crypto} {finish : Crypto → Frame → HdKey → Out} {f : Frame} {parent child : HdKey} {index : Nat} {h k : Bytes}
    (hC : Sizes C) (hF : Finishes n C finish) (hf : Frame.Sized n f) (hp : KeySized parent) (hc : KeySized child) (hi : index &&& 0x80000000 ≠ 0)
    (hh : C.hmac512 parent.chain ([0] ++ parent.priv ++ memory4 (htonl index)) = some h) (ht : C.tweakAdd parent.priv (h.take 32) = some k)
    (hx : C.xonly k = none) :
    (derive finish C f parent index child).res = .err .invalidKey ∧ (derive finish C f parent index child).key.priv = k ∧
      (derive finish C f parent index child).key.chain = h.drop 32 := by
  have hf' := hf
  have hp' := hp
  obtain ⟨f1, f2, f3, f4, f5⟩ := hf
  obtain ⟨p1, p2, p3⟩ := hp
  have l1 := hC.hmac _ _ _ hh
  have lk := hC.tweak _ _ _ ht
  have e1 : over 0 h f.hash = h := over_all (by omega)
  have e0 : (h.drop 32).take 32 = h.drop 32 := List.take_of_length_le (by simp; omega)
  have e3 : over 0 (h.drop 32) zeroKey.chain = h.drop 32 := over_all (by simp [zeroKey]; omega)
  have e5 : over 0 parent.priv f.priv = parent.priv := over_all (by omega)
  have e6 : over 0 k parent.priv = k := over_all (by omega)
  have e7 : over 0 k zeroKey.priv = k := over_all (by simp [zeroKey, lk])
  unfold derive
  simp only [blank_eq hc, deriveData_eq hC hf' hp', if_pos hi, hh, e1, e0, e3, e5, ht, e6, e7]
  have := (hF { f with data := [0] ++ parent.priv ++ memory4 (htonl index), hash := h, priv := k } { zeroKey with chain := h.drop 32, priv := k }
    ⟨l1, by simp [p1, memory4_length], lk, f4, f5⟩ ⟨lk, by simp [zeroKey], by simp; omega⟩ rfl).2.2.2.2.2
  simp only [hx] at this
  rw [this.1, this.2]
  exact ⟨rfl, rfl, rfl⟩

/-! ## A path -/

theorem sized_lengths {n : Nat} {f g : Frame} (hf : Frame.Sized n f) (hg : Frame.Sized n g) : g.dead.map List.length = f.dead.map List.length := by
  obtain ⟨f1, f2, f3, f4, f5⟩ := hf
  obtain ⟨g1, g2, g3, g4, g5⟩ := hg
  simp only [Frame.dead, List.map_cons, f1, f2, f3, f4, f5, g1, g2, g3, g4, g5]

/-- `p` is the public key of a key reached on the way, or of a key in the making with no public key yet (zeros). -/
def OnTheWay (C : Crypto) (master : HdKey) (ts : List Bytes) (p : Bytes) : Prop :=
  p = List.replicate 32 0 ∨ ∃ i k, Nostr.Hd.pathLoop C (ts.take i) master = .ok k ∧ p = k.pub

/-- The loop, over all tokens. -/
theorem loop_all {n : Nat} {C : Crypto} {finish : Crypto → Frame → HdKey → Out} {derived : HdKey} (hC : Sizes C) (hF : Finishes n C finish) :
    ∀ (ts : List Bytes) (f : PathFrame), Frame.Sized n f.calls → KeySized f.current → KeySized f.next →
      let o := pathLoop (derive finish C) f derived ts;
      (∃ ps, (∀ p ∈ ps, OnTheWay C f.current ts p) ∧ Clean ps f.calls.dead o.frame.calls.dead) ∧ o.frame.current = zeroKey ∧
      (o.res = .ok () ∨ o.res = .err .invalidParam → o.frame.next = f.next ∨ o.frame.next = zeroKey) ∧ (o.res ≠ .ok () → o.key = derived) ∧
      Nostr.Hd.pathLoop C ts f.current = (o.res >>= fun _ => .ok o.key) ∧ o.res ≠ .ub ∧ Frame.Sized n o.frame.calls ∧ KeySized o.frame.next ∧
      (o.res = .ok () → KeySized o.key)
  | [], f, hf, hc, hn => by
      refine ⟨⟨[], by simp, Clean.refl _⟩, blank_eq hc, fun _ => .inl rfl, fun h => absurd rfl h, rfl, by simp [pathLoop], hf, hn, fun _ => hc⟩
  | t :: ts, f, hf, hc, hn => by
      simp only [pathLoop, Nostr.Hd.pathLoop]
      cases ht : component t with
      | none => exact ⟨⟨[], by simp, Clean.refl _⟩, blank_eq hc, fun _ => .inl rfl, fun _ => rfl, rfl, by simp, hf, hn, fun h => by cases h⟩
      | some index =>
        obtain ⟨d1, d2, d3, d4, d5, d6, d7⟩ := derive_all (index := index) hC hF hf hc hn
        simp only
        generalize derive finish C f.calls f.current index f.next = o at d1 d2 d3 d4 d5 d6 d7 ⊢
        rw [d4]
        have first : Nostr.Hd.pathLoop C ((t :: ts).take 1) f.current = (o.res >>= fun _ => .ok o.key) := by
          simp only [List.take_succ_cons, List.take_zero, Nostr.Hd.pathLoop, ht, d4]
          cases o.res <;> rfl
        cases ho : o.res with
        | ub => exact absurd ho d5
        | err x =>
          refine ⟨⟨[o.key.pub], ?_, d1⟩, blank_eq hc, ?_, fun _ => rfl, rfl, by simp, d2, d3, fun h => by cases h⟩
          · intro p hp
            rw [List.mem_singleton.1 hp]
            exact .inl (d7 (by rw [ho]; simp))
          · rintro (h | h)
            · cases h
            · rw [ho] at d6; exact absurd h d6
        | ok u =>
          obtain ⟨i1, i2, i3, i4, i5, i6, i7, i8, i9⟩ := loop_all (derived := derived) hC hF ts ⟨o.key, blank o.key, o.frame⟩ d2 d3 (blank_sized d3)
          obtain ⟨ps, j1, j2⟩ := i1
          rw [ho] at first
          refine ⟨⟨o.key.pub :: ps, ?_, ?_⟩, i2, ?_, i4, i5, i6, i7, i8, i9⟩
          · intro p hp
            rcases List.mem_cons.1 hp with h | h
            · exact .inr ⟨1, o.key, first, h⟩
            · rcases j1 p h with h | ⟨i, k, h1, h2⟩
              · exact .inl h
              · refine .inr ⟨i + 1, k, ?_, h2⟩
                simp only [List.take_succ_cons, Nostr.Hd.pathLoop, ht, d4, ho, Res.bind_ok]
                exact h1
          · exact (d1.mono (by simp)).trans (sized_lengths hf d2) (j2.mono (fun x h => List.mem_cons_of_mem _ h))
          · intro h
            rcases i3 h with h | h
            · exact .inr (by rw [h, blank_eq d3])
            · exact .inr h

/-- What the local buffers of `nostr_hd_key_derive_path` held before, and what they hold at the return, but for the key in the
making (`next`). -/
def others (f : PathFrame) : List Bytes := pieces f.current ++ f.calls.dead

def PathFrame.Sized (n : Nat) (f : PathFrame) : Prop := KeySized f.current ∧ KeySized f.next ∧ Frame.Sized n f.calls

/-- The components of a path. -/
def components (path : Bytes) : List Bytes := tokens 0x2f (path.drop 2)

/-- The statement for paths, for a backend. -/
def PathClean (n : Nat) (C : Crypto) (D : Frame → HdKey → Nat → HdKey → Out) : Prop :=
  ∀ (f : PathFrame) (derived master : HdKey) (path : Bytes), PathFrame.Sized n f → KeySized master →
    let r := derivePath D f derived master path;
    (∃ ps, (∀ p ∈ ps, OnTheWay C master (components path) p) ∧ Clean ps (others f) (others r.1.frame)) ∧
    (r.1.res = .ok () ∨ r.1.res = .err .invalidParam → r.1.frame.next = f.next ∨ r.1.frame.next = zeroKey) ∧
    (r.1.res ≠ .ok () → r.1.key = derived) ∧ (∀ b ∈ r.2, b = List.replicate b.length 0) ∧ (r.1.res = .ok () → KeySized r.1.key) ∧
    Nostr.Hd.derivePath C master path = (r.1.res >>= fun _ => .ok r.1.key)

theorem path_clean {n : Nat} {C : Crypto} {finish : Crypto → Frame → HdKey → Out} (hC : Sizes C) (hF : Finishes n C finish) :
    PathClean n C (derive finish C) := by
  intro f derived master path hf hm
  obtain ⟨hf1, hf2, hf3⟩ := hf
  unfold derivePath Nostr.Hd.derivePath
  split
  · exact ⟨⟨[], by simp, Clean.refl _⟩, fun _ => .inl rfl, fun h => absurd rfl h, by simp, fun _ => hm, rfl⟩
  · rename_i rest
    obtain ⟨⟨ps, i1, i1'⟩, i2, i3, i4, i5, i6, i7, i8, i9⟩ := loop_all (derived := derived) hC hF (tokens 0x2f rest) ⟨master, f.next, f.calls⟩ hf3 hm hf2
    refine ⟨⟨ps, i1, ?_⟩, i3, i4, ?_, i9, i5⟩
    · refine Clean.append ?_ i1'
      simp only [i2, pieces, zeroKey, Clean, hf1.1, hf1.2.1, hf1.2.2, or_true, true_or, and_self]
    · intro b hb
      rw [List.mem_singleton.1 hb]
      have : wipe rest.length (rest ++ [0]) = List.replicate (rest.length + 1) 0 := by
        simp [wipe, over, List.replicate_succ']
      simp only [this, List.length_replicate]
  · rename_i h1 h2
    refine ⟨⟨[], by simp, Clean.refl _⟩, fun _ => .inl rfl, fun _ => rfl, by simp, (fun h => by cases h), ?_⟩
    split
    · exact absurd rfl h1
    · exact absurd rfl (h2 _)
    · rfl

/-- C161: deriving along a path, with both backends. When the call returns, whether it succeeds or not, the local buffers and the
released block are wiped, were never written, or hold public keys of keys on the way; the caller's key is written only when
the call succeeds. The key in the making is covered when the call succeeds, and when it fails because of the path. The
outcome is that of the value model. -/
theorem C161_path_partial {C : Crypto} {pair : Bytes → Option Bytes} (hC : Sizes C) (hk : ∀ k p, pair k = some p → p.length = 96)
    (hx : ∀ k, pair k = none → C.xonly k = none) : PathClean 32 C (derive childNc C) ∧ PathClean 96 C (derive (childSecp pair) C) :=
  ⟨path_clean hC (finishes_nc hC), path_clean hC (finishes_secp hC hk hx)⟩

/-- C161 fails for paths: when the last step is refused, the key in the making is left, with the chain code of the key that was
refused. -/
theorem C161_path_refuted {n : Nat} {C : Crypto} {finish : Crypto → Frame → HdKey → Out} {f : PathFrame} {derived master : HdKey} {h : Bytes}
    (hC : Sizes C) (hf : PathFrame.Sized n f) (hm : KeySized master)
    (hh : C.hmac512 master.chain ([0] ++ master.priv ++ memory4 (htonl 0x80000000)) = some h) (ht : C.tweakAdd master.priv (h.take 32) = none) :
    let r := derivePath (derive finish C) f derived master c!"m/0'";
    r.1.res = .err .invalidKey ∧ r.1.frame.next.chain = h.drop 32 := by
  obtain ⟨hf1, hf2, hf3⟩ := hf
  obtain ⟨d1, d2⟩ := C161_child_refuted (finish := finish) hC hf3 hm hf2 (index := 0x80000000) (by decide) hh ht
  have e1 : tokens 0x2f [0x30, 0x27] = [[0x30, 0x27]] := by decide
  have e2 : component [0x30, 0x27] = some 0x80000000 := by decide +kernel
  simp only [derivePath, e1, pathLoop, e2, d1]
  exact ⟨trivial, d2⟩

/-! ## Cases -/

/-- A toy library: keys that begin with 9 have no public key, and tweaks that begin with 7 are refused. -/
def toy : Crypto where
  hmac512 k d := some ((k ++ d ++ List.replicate 64 1).take 64)
  sha256 _ := List.replicate 32 2
  pbkdf2 _ _ _ n := some (List.replicate n 3)
  pubCompressed k := some (([2] ++ k ++ List.replicate 33 0).take 33)
  tweakAdd k t := if t.head? = some 7 then none else some ((List.zipWith (· + ·) k t ++ List.replicate 32 0).take 32)
  xonly k := if k.head? = some 9 then none else some ((k ++ List.replicate 32 0).take 32)
  nfkd := none

theorem toy_sizes : Sizes toy := by
  constructor
  · intro k d h e; simp only [toy, Option.some.injEq] at e; rw [← e, List.length_take, List.length_append, List.length_replicate]; omega
  · intro k c e; simp only [toy, Option.some.injEq] at e; rw [← e, List.length_take, List.length_append, List.length_replicate]; omega
  · intro k t c e
    simp only [toy] at e
    split at e
    · cases e
    · simp only [Option.some.injEq] at e; rw [← e, List.length_take, List.length_append, List.length_replicate]; omega
  · intro k p e
    simp only [toy] at e
    split at e
    · cases e
    · simp only [Option.some.injEq] at e; rw [← e, List.length_take, List.length_append, List.length_replicate]; omega

/-- Buffers full of 0x55. -/
def toyFrame : Frame := ⟨List.replicate 64 0x55, List.replicate 37 0x55, List.replicate 32 0x55, List.replicate 32 0x55, List.replicate 32 0x55⟩

def toyKey : HdKey := ⟨List.replicate 32 5, List.replicate 32 6, List.replicate 32 3⟩

/-- A key with a chain code that makes the toy library refuse the tweak. -/
def badKey : HdKey := ⟨List.replicate 32 5, List.replicate 32 6, List.replicate 32 7⟩

example : Frame.Sized 32 toyFrame ∧ KeySized toyKey ∧ KeySized badKey := by simp [Frame.Sized, toyFrame, KeySized, toyKey, badKey]

example : (fromSeedNc toy toyFrame toyKey (List.replicate 16 8)).res = .ok () := by decide +kernel

example : (derivePath (derive childNc toy) ⟨toyKey, toyKey, toyFrame⟩ toyKey toyKey c!"m/44'/0").1.res = .ok () := by decide +kernel

example : (derivePath (derive childNc toy) ⟨toyKey, toyKey, toyFrame⟩ toyKey badKey c!"m/0'").1.res = .err .invalidKey := by decide +kernel

end Nostr.Wipe.Hd.Props
