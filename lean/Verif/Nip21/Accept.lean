import Verif.Nip21.Interop

/-! # Property theorems: C117, exactly which texts are records of NIP-19 -/

namespace Nostr.Nip21.Props
open Nostr Nostr.Nip21 Nostr.Nip21.Spec Nostr.Bech32

/-- Specification: `s` is the BIP-173 text, under the prefix `pre`, of the records `rs` (and at most one stray byte
behind them), at least one and at most `max` bytes long. -/
def Carries (pre : Bytes) (max : Nat) (s : Bytes) (rs : List Rec) : Prop :=
  ∃ tail : Bytes, tail.length ≤ 1 ∧ Wf rs ∧ wire rs ++ tail ≠ [] ∧ (wire rs ++ tail).length ≤ max ∧
    Bip173.IsText pre (wire rs ++ tail) s

/-- Specification: the relay addresses among the records, in order, the first sixteen. -/
def relaysOf (rs : List Rec) : List Bytes :=
  (((rs.filter fun r => r.type = 1).map Rec.value).filter fun u => RelayUrl u).take 16

/-- Specification: the last record of this type and length. -/
def lastOf (t : UInt8) (n : Nat) (rs : List Rec) : Option Bytes := lastSuch (fun r => r.type = t ∧ r.value.length = n) rs

theorem opened {pre : Bytes} (ha : ∀ c ∈ pre, c < 128) (hh : pre.length ≤ 41) {max : Nat} {a : TlvArgs} (hr : a.maxRelays ≤ 16)
    {s : Bytes} {t : Tlv} :
    (decodeBytes s pre max >>= fun d => parseTlv a d) = .ok t ↔
      ∃ rs, Carries pre max s rs ∧ (∀ r ∈ rs, r.type = 0 → r.value.length ≤ a.specialSize) ∧ t = meaning a rs := by
  rw [Res.bind_eq_ok]
  constructor
  · rintro ⟨d, h1, h2⟩
    obtain ⟨g1, g2, g3⟩ := (C106_decode_iff s d pre ha hh max).1 h1
    obtain ⟨rs, tail, hw, rfl, ht | ⟨x, l, v, rfl, hv⟩⟩ := split_records d
    · rw [parse_complete a hr rs tail hw ht] at h2
      split at h2
      · cases h2
      · rename_i hs
        refine ⟨rs, ⟨tail, ht, hw, g1, g2, g3⟩, ?_, ?_⟩
        · intro r hr h0
          refine Nat.le_of_not_lt fun hlt => hs ⟨r, hr, h0, hlt⟩
        · simp only [Res.ok.injEq] at h2; exact h2.symm
    · rw [parse_truncated a hr rs x l v hw hv] at h2
      cases h2
  · rintro ⟨rs, ⟨tail, ht, hw, g1, g2, g3⟩, hs, rfl⟩
    refine ⟨wire rs ++ tail, (C106_decode_iff s _ pre ha hh max).2 ⟨g1, g2, g3⟩, ?_⟩
    rw [parse_complete a hr rs tail hw ht, if_neg]
    rintro ⟨r, h1, h2, h3⟩
    have := hs r h1 h2
    omega

theorem special_some {rs : List Rec} {v : Bytes} (hv : v ≠ []) :
    (lastSuch (fun r => r.type = 0) rs).getD [] = v ↔ lastSuch (fun r => r.type = 0) rs = some v := by
  cases lastSuch (fun r => r.type = 0) rs with
  | none => simp only [Option.getD_none, reduceCtorEq, iff_false]; exact fun h => hv h.symm
  | some w => simp

/-- C117: a text is read as a profile pointer exactly if it is the text of records whose last key record has 32
bytes, none longer; that is the key, and the first sixteen relay addresses are the relays. -/
theorem C117_profile (s : Bytes) (p : NProfile) : nprofileDecode s = .ok p ↔
    ∃ rs, Carries (c!"nprofile") 4096 s rs ∧ (∀ r ∈ rs, r.type = 0 → r.value.length ≤ 32) ∧
      lastSuch (fun r => r.type = 0) rs = some p.pubkey ∧ p.pubkey.length = 32 ∧ p.relays = relaysOf rs := by
  have key := @opened (c!"nprofile") (by decide) (by decide) 4096 ⟨32, true, maxRelays, false, false⟩ (by decide) s
  unfold nprofileDecode
  rw [← Res.bind_assoc, Res.bind_eq_ok]
  constructor
  · rintro ⟨t, h1, h2⟩
    obtain ⟨rs, g1, g2, rfl⟩ := key.1 h1
    split at h2
    · cases h2
    · rename_i hl
      simp only [Res.ok.injEq] at h2
      subst h2
      refine ⟨rs, g1, g2, ?_, Decidable.not_not.1 hl, rfl⟩
      refine (special_some ?_).1 rfl
      intro h
      rw [show (meaning ⟨32, true, maxRelays, false, false⟩ rs).special = [] from h] at hl
      simp at hl
  · rintro ⟨rs, g1, g2, g3, g4, g5⟩
    refine ⟨_, key.2 ⟨rs, g1, g2, rfl⟩, ?_⟩
    have : (meaning ⟨32, true, maxRelays, false, false⟩ rs).special = p.pubkey := by simp only [meaning]; rw [g3]; rfl
    rw [this, if_neg (by omega)]
    congr 1
    obtain ⟨pk, rl⟩ := p
    simp only at g5
    rw [g5]
    rfl

/-- C117: the same for event pointers: id, relays, and the last author of 32 bytes and kind of 4 bytes, if any. -/
theorem C117_event (s : Bytes) (e : NEvent) : neventDecode s = .ok e ↔
    ∃ rs, Carries (c!"nevent") 4096 s rs ∧ (∀ r ∈ rs, r.type = 0 → r.value.length ≤ 32) ∧
      lastSuch (fun r => r.type = 0) rs = some e.id ∧ e.id.length = 32 ∧ e.relays = relaysOf rs ∧
      e.author = lastOf 2 32 rs ∧ e.kind = (lastOf 3 4 rs).map fun v => BitVec.ofNat 32 (beNat v) := by
  have key := @opened (c!"nevent") (by decide) (by decide) 4096 ⟨32, true, maxRelays, true, true⟩ (by decide) s
  unfold neventDecode
  rw [← Res.bind_assoc, Res.bind_eq_ok]
  constructor
  · rintro ⟨t, h1, h2⟩
    obtain ⟨rs, g1, g2, rfl⟩ := key.1 h1
    split at h2
    · cases h2
    · rename_i hl
      simp only [Res.ok.injEq] at h2
      subst h2
      refine ⟨rs, g1, g2, ?_, Decidable.not_not.1 hl, rfl, rfl, rfl⟩
      refine (special_some ?_).1 rfl
      intro h
      rw [show (meaning ⟨32, true, maxRelays, true, true⟩ rs).special = [] from h] at hl
      simp at hl
  · rintro ⟨rs, g1, g2, g3, g4, g5, g6, g7⟩
    refine ⟨_, key.2 ⟨rs, g1, g2, rfl⟩, ?_⟩
    have : (meaning ⟨32, true, maxRelays, true, true⟩ rs).special = e.id := by simp only [meaning]; rw [g3]; rfl
    rw [this, if_neg (by omega)]
    congr 1
    obtain ⟨i, rl, a, k⟩ := e
    simp only at g5 g6 g7
    rw [g5, g6, g7]
    rfl

/-- C117: the same for addresses: author and kind must be there, the identifier (empty if there is none) has fewer
than 256 bytes and ends at its first NUL. -/
theorem C117_address (s : Bytes) (a : NAddr) : naddrDecode s = .ok a ↔
    ∃ rs k v, Carries (c!"naddr") 4096 s rs ∧ (∀ r ∈ rs, r.type = 0 → r.value.length ≤ 256) ∧
      v = (lastSuch (fun r => r.type = 0) rs).getD [] ∧ v.length < 256 ∧ a.identifier = v.takeWhile (· ≠ 0) ∧
      lastOf 2 32 rs = some a.pubkey ∧ lastOf 3 4 rs = some k ∧ a.kind = BitVec.ofNat 32 (beNat k) ∧ a.relays = relaysOf rs := by
  have key := @opened (c!"naddr") (by decide) (by decide) 4096 ⟨maxIdentifierLen, true, maxRelays, true, true⟩ (by decide) s
  unfold naddrDecode
  rw [← Res.bind_assoc, Res.bind_eq_ok]
  constructor
  · rintro ⟨t, h1, h2⟩
    obtain ⟨rs, g1, g2, rfl⟩ := key.1 h1
    cases ha : lastOf 2 32 rs with
    | none =>
      have : (meaning ⟨maxIdentifierLen, true, maxRelays, true, true⟩ rs).author = none := ha
      rw [this] at h2
      cases h2
    | some pk =>
      cases hk : lastOf 3 4 rs with
      | none =>
        have : (meaning ⟨maxIdentifierLen, true, maxRelays, true, true⟩ rs).kind = none := by
          simp only [meaning, if_true]
          rw [show lastSuch (fun r => r.type = 3 ∧ r.value.length = 4) rs = none from hk]; rfl
        rw [this] at h2
        split at h2
        · rename_i h; cases h
        · cases h2
      | some k =>
        have e1 : (meaning ⟨maxIdentifierLen, true, maxRelays, true, true⟩ rs).author = some pk := ha
        have e2 : (meaning ⟨maxIdentifierLen, true, maxRelays, true, true⟩ rs).kind = some (BitVec.ofNat 32 (beNat k)) := by
          simp only [meaning, if_true]
          rw [show lastSuch (fun r => r.type = 3 ∧ r.value.length = 4) rs = some k from hk]; rfl
        rw [e1, e2] at h2
        simp only at h2
        split at h2
        · cases h2
        · rename_i hl
          simp only [Res.ok.injEq] at h2
          subst h2
          refine ⟨rs, k, _, g1, g2, rfl, Nat.lt_of_not_le hl, ?_, ha, hk, rfl, rfl⟩
          simp only [cstrOf, meaning]
  · rintro ⟨rs, k, v, g1, g2, g3, g4, g5, g6, g7, g8, g9⟩
    refine ⟨_, key.2 ⟨rs, g1, g2, rfl⟩, ?_⟩
    have e1 : (meaning ⟨maxIdentifierLen, true, maxRelays, true, true⟩ rs).author = some a.pubkey := g6
    have e2 : (meaning ⟨maxIdentifierLen, true, maxRelays, true, true⟩ rs).kind = some (BitVec.ofNat 32 (beNat k)) := by
      simp only [meaning, if_true]
      rw [show lastSuch (fun r => r.type = 3 ∧ r.value.length = 4) rs = some k from g7]; rfl
    have e3 : (meaning ⟨maxIdentifierLen, true, maxRelays, true, true⟩ rs).special = v := g3.symm
    rw [e1, e2, e3]
    simp only
    rw [if_neg (by unfold maxIdentifierLen; omega)]
    congr 1
    obtain ⟨i, pk, kd, rl⟩ := a
    simp only at g5 g8 g9
    rw [g5, g8, g9]
    congr 1

/-- C117: the same for relay pointers: the last special record, of 1 to 255 bytes, up to its first NUL. -/
theorem C117_relay (s url : Bytes) : nrelayDecode s = .ok url ↔
    ∃ rs v, Carries (c!"nrelay") 512 s rs ∧ (∀ r ∈ rs, r.type = 0 → r.value.length ≤ 256) ∧
      lastSuch (fun r => r.type = 0) rs = some v ∧ v ≠ [] ∧ v.length < 256 ∧ url = v.takeWhile (· ≠ 0) := by
  have key := @opened (c!"nrelay") (by decide) (by decide) 512 ⟨maxRelayLen, false, 0, false, false⟩ (by decide) s
  unfold nrelayDecode
  rw [← Res.bind_assoc, Res.bind_eq_ok]
  constructor
  · rintro ⟨t, h1, h2⟩
    obtain ⟨rs, g1, g2, rfl⟩ := key.1 h1
    split at h2
    · cases h2
    · rename_i hl
      simp only [not_or] at hl
      simp only [Res.ok.injEq] at h2
      subst h2
      have hne : (meaning ⟨maxRelayLen, false, 0, false, false⟩ rs).special ≠ [] := by
        intro h; rw [h] at hl; simp at hl
      refine ⟨rs, _, g1, g2, (special_some hne).1 rfl, hne, Nat.lt_of_not_le hl.2, ?_⟩
      simp only [cstrOf]
  · rintro ⟨rs, v, g1, g2, g3, g4, g5, g6⟩
    refine ⟨_, key.2 ⟨rs, g1, g2, rfl⟩, ?_⟩
    have : (meaning ⟨maxRelayLen, false, 0, false, false⟩ rs).special = v := by simp only [meaning]; rw [g3]; rfl
    rw [this, if_neg, g6]
    · congr 1
    · have : v.length ≠ 0 := fun h => g4 (List.length_eq_zero_iff.1 h)
      unfold maxRelayLen; omega

/-- A text that is accepted: the published profile pointer of NIP-19. -/
example : ((nprofileDecode (c!"nprofile1qqsrhuxx8l9ex335q7he0f09aej04zpazpl0ne2cgukyawd24mayt8gpp4mhxue69uhhytnc9e3k7mgpz4mhxue69uhkg6nzv9ejuumpv34kytnrdaksjlyr9p")).isOk) = true := by
  decide +kernel

end Nostr.Nip21.Props
