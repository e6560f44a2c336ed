import Verif.Nip21.Build
import Verif.Bech32.Props

/-!
# Properties C06–C08, C74–C76: NIP-19 TLV entities and `nostr:` URIs
-/

namespace Nostr.Nip21.Props
open Nostr Nostr.Bech32 Nostr.Nip21 Nostr.Nip21.Spec

/-! ## C07 the TLV parser -/

/-- **C07** (meaning).  On a run of complete records (plus at most one stray byte) the parser returns
exactly the specified meaning, or an encoding error when a special value exceeds the caller's buffer.
`maxRelays ≤ 16` is what all callers pass. -/
theorem C07_parse_meaning (a : TlvArgs) (ha : a.maxRelays ≤ 16) (rs : List Rec) (tail : Bytes)
    (hw : Wf rs) (ht : tail.length ≤ 1) :
    (SpecialTooLong a rs → parseTlv a (wire rs ++ tail) = .err .encoding) ∧
    (¬ SpecialTooLong a rs → parseTlv a (wire rs ++ tail) = .ok (meaning a rs)) := by
  have h := parse_complete a ha rs tail hw ht
  constructor
  · intro hs; exact h.trans (if_pos hs)
  · intro hs; exact h.trans (if_neg hs)

/-- **C07** (safety).  For *every* byte string the parser terminates without an out-of-bounds read or
store, returning success or an encoding error, never more than 16 relays (nor more than asked for). -/
theorem C07_parse_total (a : TlvArgs) (ha : a.maxRelays ≤ 16) (data : Bytes) :
    parseTlv a data = .err .encoding ∨
    ∃ t, parseTlv a data = .ok t ∧ t.relays.length ≤ a.maxRelays ∧ (∀ r ∈ t.relays, RelayUrl r) ∧
      t.special.length ≤ a.specialSize := by
  obtain ⟨rs, tail, hw, rfl, ht | ⟨t, l, v, rfl, hv⟩⟩ := split_records data
  · rw [parse_complete a ha rs tail hw ht]
    split
    · exact .inl rfl
    · rename_i hs
      refine .inr ⟨_, rfl, ?_, ?_, ?_⟩
      · simp only [meaning]
        split
        · rw [List.length_take]; omega
        · simp
      · intro r hr
        simp only [meaning] at hr
        split at hr
        · have := List.mem_filter.1 (List.mem_of_mem_take hr)
          simpa using this.2
        · simp at hr
      · simp only [meaning, lastSuch]
        cases hl : (rs.filter fun r => decide (r.type = 0)).getLast? with
        | none => simp
        | some r =>
          have hm := List.mem_of_getLast? hl
          rw [List.mem_filter] at hm
          simp only [Option.map_some, Option.getD_some]
          apply Nat.le_of_not_lt
          intro h
          exact hs ⟨r, hm.1, by simpa using hm.2, h⟩
  · exact .inl (parse_truncated a ha rs t l v hw hv)

/-- **C07** (truncation).  A record whose announced length runs past the end is rejected. -/
theorem C07_truncated_rejected (a : TlvArgs) (ha : a.maxRelays ≤ 16) (rs : List Rec) (t l : UInt8)
    (v : Bytes) (hw : Wf rs) (hv : v.length < l.toNat) :
    parseTlv a (wire rs ++ (t :: l :: v)) = .err .encoding :=
  parse_truncated a ha rs t l v hw hv

theorem meaning_unknown (a : TlvArgs) (rs ss : List Rec) (r : Rec) (h : 4 ≤ r.type.toNat) :
    meaning a (rs ++ r :: ss) = meaning a (rs ++ ss) := by
  have hn : ∀ n : UInt8, n.toNat < 4 → r.type ≠ n := by rintro n hn rfl; omega
  unfold meaning lastSuch
  simp [List.filter_append, List.filter_cons, hn 0 (by decide), hn 1 (by decide), hn 2 (by decide),
    hn 3 (by decide)]

/-- **C07** (forward compatibility).  Inserting a record of an unknown type (4..255) at any record
boundary of any byte string (whatever follows the boundary, even garbage) changes nothing. -/
theorem C07_unknown_ignored (a : TlvArgs) (ha : a.maxRelays ≤ 16) (rs : List Rec) (hw : Wf rs)
    (r : Rec) (hr : r.value.length ≤ 255) (hu : 4 ≤ r.type.toNat) (rest : Bytes) :
    parseTlv a (wire rs ++ wire [r] ++ rest) = parseTlv a (wire rs ++ rest) := by
  obtain ⟨ss, tail, hs, rfl, ht⟩ := split_records rest
  have hwf : Wf (rs ++ ss) := by
    intro x hx; rcases List.mem_append.1 hx with hx | hx
    · exact hw x hx
    · exact hs x hx
  have hwf' : Wf (rs ++ r :: ss) := by
    intro x hx
    rcases List.mem_append.1 hx with hx | hx
    · exact hw x hx
    · rcases List.mem_cons.1 hx with rfl | hx
      · exact hr
      · exact hs x hx
  have e1 : wire rs ++ wire [r] ++ (wire ss ++ tail) = wire (rs ++ r :: ss) ++ tail := by
    have : rs ++ r :: ss = rs ++ ([r] ++ ss) := rfl
    rw [this, wire_append, wire_append]; simp
  have e2 : wire rs ++ (wire ss ++ tail) = wire (rs ++ ss) ++ tail := by rw [wire_append]; simp
  rw [e1, e2]
  rcases ht with ht | ⟨t, l, v, rfl, hv⟩
  · rw [parse_complete a ha _ tail hwf' ht, parse_complete a ha _ tail hwf ht, meaning_unknown a rs ss r hu]
    have : (∃ x ∈ rs ++ r :: ss, x.type = 0 ∧ a.specialSize < x.value.length) ↔
        ∃ x ∈ rs ++ ss, x.type = 0 ∧ a.specialSize < x.value.length := by
      have h0 : r.type ≠ 0 := by rintro h; rw [h] at hu; simp at hu
      constructor
      · rintro ⟨x, hx, hp⟩
        rcases List.mem_append.1 hx with hx | hx
        · exact ⟨x, by simp [hx], hp⟩
        · rcases List.mem_cons.1 hx with rfl | hx
          · exact absurd hp.1 h0
          · exact ⟨x, by simp [hx], hp⟩
      · rintro ⟨x, hx, hp⟩
        refine ⟨x, ?_, hp⟩
        rcases List.mem_append.1 hx with hx | hx <;> simp [hx]
    simp only [this]
  · rw [parse_truncated a ha _ t l v hwf' hv, parse_truncated a ha _ t l v hwf hv]

/-- A concrete parse: id, an unknown record in the middle, two relays (one invalid), kind. -/
example : parseTlv ⟨32, true, 16, true, true⟩
    ([0, 2, 0xaa, 0xbb] ++ [9, 3, 1, 2, 3] ++ ([1, 6] ++ c!"ws://a") ++ ([1, 7] ++ c!"http://")
      ++ [3, 4, 0, 0, 0x75, 0x30] ++ [7]) = .ok ⟨[0xaa, 0xbb], [c!"ws://a"], none, some 30000⟩ := by
  decide +kernel

/-! ## C06 round trips -/

theorem good_filter {rs : List Bytes} (h : GoodRelays rs) :
    (rs.filter fun u => RelayUrl u).take 16 = rs := by
  rw [List.filter_eq_self.2 (by intro r hr; simpa using h.2 r hr), take_all h.1]

theorem good_len {rs : List Bytes} (h : GoodRelays rs) : ∀ r ∈ rs, r.length ≤ 255 :=
  fun r hr => (h.2 r hr).2.1

theorem cstrOf_self {s : Bytes} (h : CStr s) : cstrOf s = s := by
  unfold cstrOf
  induction s with
  | nil => rfl
  | cons x xs ih =>
    have hx : x ≠ 0 := by rintro rfl; exact h (by simp)
    rw [List.takeWhile_cons, if_pos (by simpa using hx), ih (fun hm => h (by simp [hm]))]

theorem recs_len (special : Bytes) (relays : List Bytes) (author : Option Bytes)
    (kind : Option (BitVec 32)) (ha : ∀ a, author = some a → a.length = 32) :
    (wire (recsOf special relays author kind)).length =
      (if special = [] then 0 else 2 + special.length) + relaySpace relays
        + (if author.isSome then 34 else 0) + (if kind.isSome then 6 else 0) := by
  unfold recsOf relaySpace
  rw [wire_append, wire_append, wire_append, List.length_append, List.length_append,
    List.length_append, wire_relays_length]
  have h1 : (wire (if special = [] then [] else [⟨0, special⟩])).length
      = if special = [] then 0 else 2 + special.length := by
    split
    · rfl
    · simp [wire]; omega
  have h2 : (wire (author.toList.map (⟨2, ·⟩))).length = if author.isSome then 34 else 0 := by
    cases author with
    | none => rfl
    | some a => simp [wire, ha a rfl]
  have h3 : (wire (kind.toList.map fun k => ⟨3, be4 k⟩)).length = if kind.isSome then 6 else 0 := by
    cases kind with
    | none => rfl
    | some a => simp [wire]
  omega

theorem wire_ne {rs : List Rec} (h : rs ≠ []) : wire rs ≠ [] := by
  cases rs with
  | nil => exact absurd rfl h
  | cons r rs => rw [wire_cons]; simp

theorem recsOf_ne {special : Bytes} (h : special ≠ []) (relays author kind) :
    recsOf special relays author kind ≠ [] := by
  simp [recsOf, h]

/-- Shared shape of the encoders with a 4096-byte record area. -/
theorem encode_shape {rs : List Rec} {h : Bytes} (hh : h.length ≤ 41) (hne : rs ≠ []) (size : Nat) :
    (if wire rs = [] then .err .encoding else encodeBytes (wire rs) h size) =
      if size < (text h (wire rs)).length + 1 then .err .invalidParam
      else .ok (text h (wire rs)) := by
  rw [if_neg (wire_ne hne), encodeBytes_eq hh (wire_ne hne)]

theorem text_bound {h : Bytes} (hh : h.length ≤ 8) {d : Bytes} (hd : d.length ≤ 4096) :
    (text h d).length ≤ 6569 := by
  rw [text_length (by omega)]; omega

/-- **C06** (profiles).  In-limit profile, any buffer size: the encoder either reports the buffer too
small (never for 6570 bytes or more), or writes a text that fits with its NUL and decodes to the same
profile. -/
theorem C06_nprofile_roundtrip (p : NProfile) (hp : InLimits (.nprofile p)) (size : Nat) :
    (nprofileEncode p size = .err .invalidParam ∧ size < 6570) ∨
    ∃ s, nprofileEncode p size = .ok s ∧ s.length + 1 ≤ size ∧ nprofileDecode s = .ok p := by
  obtain ⟨h1, h2, h3⟩ := hp
  have hne : p.pubkey ≠ [] := by intro h; rw [h] at h1; simp at h1
  have hlen := recs_len p.pubkey p.relays none none (by simp)
  simp [hne, h1] at hlen
  have hb := buildTlv_full 4096 p.pubkey p.relays none none (by simp) (by omega) h2.1 (good_len h2)
    (by omega)
  unfold nprofileEncode
  simp only [hb]
  rw [encode_shape (by decide) (recsOf_ne hne _ _ _)]
  split
  · have := text_bound (h := c!"nprofile") (by decide) (d := wire (recsOf p.pubkey p.relays none none)) (by omega)
    exact .inl ⟨rfl, by omega⟩
  · refine .inr ⟨_, rfl, by omega, ?_⟩
    unfold nprofileDecode
    rw [(decodeBytes_iff (by decide) _ (wire (recsOf p.pubkey p.relays none none)) 4096).2
      ⟨wire_ne (recsOf_ne hne _ _ _), by omega, rfl⟩, Res.bind_ok]
    have hp := parse_complete ⟨32, true, maxRelays, false, false⟩ (by decide)
      (recsOf p.pubkey p.relays none none) [] (recsOf_wf (by simp) (by omega) (good_len h2)) (by simp)
    rw [List.append_nil, if_neg (recsOf_special (by simp; omega)), meaning_recsOf _ _ _ _ _ (by simp)] at hp
    rw [hp, Res.bind_ok]
    simp [h1, maxRelays, good_filter h2]

/-- **C06** (event references, with optional author and kind). -/
theorem C06_nevent_roundtrip (e : NEvent) (he : InLimits (.nevent e)) (size : Nat) :
    (neventEncode e size = .err .invalidParam ∧ size < 6570) ∨
    ∃ s, neventEncode e size = .ok s ∧ s.length + 1 ≤ size ∧ neventDecode s = .ok e := by
  obtain ⟨h1, ha, h2, h3⟩ := he
  have hne : e.id ≠ [] := by intro h; rw [h] at h1; simp at h1
  have hlen := recs_len e.id e.relays e.author e.kind ha
  simp only [hne, h1, if_false] at hlen
  have hb := buildTlv_full 4096 e.id e.relays e.author e.kind ha (by omega) h2.1 (good_len h2)
    (by omega)
  unfold neventEncode
  simp only [hb]
  rw [encode_shape (by decide) (recsOf_ne hne _ _ _)]
  split
  · have := text_bound (h := c!"nevent") (by decide) (d := wire (recsOf e.id e.relays e.author e.kind)) (by omega)
    exact .inl ⟨rfl, by omega⟩
  · refine .inr ⟨_, rfl, by omega, ?_⟩
    unfold neventDecode
    rw [(decodeBytes_iff (by decide) _ (wire (recsOf e.id e.relays e.author e.kind)) 4096).2
      ⟨wire_ne (recsOf_ne hne _ _ _), by omega, rfl⟩, Res.bind_ok]
    have hp := parse_complete ⟨32, true, maxRelays, true, true⟩ (by decide)
      (recsOf e.id e.relays e.author e.kind) [] (recsOf_wf ha (by omega) (good_len h2)) (by simp)
    rw [List.append_nil, if_neg (recsOf_special (by simp; omega)), meaning_recsOf _ _ _ _ _ ha] at hp
    rw [hp, Res.bind_ok]
    simp [h1, maxRelays, good_filter h2]

/-- **C06** (addresses; the identifier may be empty). -/
theorem C06_naddr_roundtrip (a : NAddr) (h : InLimits (.naddr a)) (size : Nat) :
    (naddrEncode a size = .err .invalidParam ∧ size < 6570) ∨
    ∃ s, naddrEncode a size = .ok s ∧ s.length + 1 ≤ size ∧ naddrDecode s = .ok a := by
  obtain ⟨h1, hc, hk, h2, h3⟩ := h
  have ha : ∀ x, some a.pubkey = some x → x.length = 32 := by rintro x hx; cases hx; exact hk
  have hlen := recs_len a.identifier a.relays (some a.pubkey) (some a.kind) ha
  have hlen' : (wire (recsOf a.identifier a.relays (some a.pubkey) (some a.kind))).length ≤ 4096 := by
    rw [hlen]; simp only [Option.isSome_some, if_true]; split <;> omega
  have hne : recsOf a.identifier a.relays (some a.pubkey) (some a.kind) ≠ [] := by simp [recsOf]
  have hb := buildTlv_full 4096 a.identifier a.relays (some a.pubkey) (some a.kind) ha h1 h2.1
    (good_len h2) hlen'
  unfold naddrEncode
  simp only [hb]
  rw [encode_shape (by decide) hne]
  split
  · have := text_bound (h := c!"naddr") (by decide) hlen'
    exact .inl ⟨rfl, by omega⟩
  · refine .inr ⟨_, rfl, by omega, ?_⟩
    unfold naddrDecode
    rw [(decodeBytes_iff (by decide) _ _ 4096).2 ⟨wire_ne hne, hlen', rfl⟩, Res.bind_ok]
    have hp := parse_complete ⟨maxIdentifierLen, true, maxRelays, true, true⟩ (by decide)
      (recsOf a.identifier a.relays (some a.pubkey) (some a.kind)) [] (recsOf_wf ha h1 (good_len h2))
      (by simp)
    rw [List.append_nil, if_neg (recsOf_special (by simp [maxIdentifierLen]; omega)),
      meaning_recsOf _ _ _ _ _ ha] at hp
    rw [hp, Res.bind_ok]
    simp only [if_true]
    rw [if_neg (by simp [maxIdentifierLen]; omega), cstrOf_self hc, maxRelays, good_filter h2]

/-- **C06** (relay entities). -/
theorem C06_nrelay_roundtrip (u : Bytes) (h : InLimits (.nrelay u)) (size : Nat) :
    (nrelayEncode u size = .err .invalidParam ∧ size < 6570) ∨
    ∃ s, nrelayEncode u size = .ok s ∧ s.length + 1 ≤ size ∧ nrelayDecode s = .ok u := by
  obtain ⟨h1, h2, hc⟩ := h
  have hw : [0, UInt8.ofNat u.length] ++ u = wire [⟨0, u⟩] := by simp [wire]
  have hne : wire [⟨0, u⟩] ≠ [] := wire_ne (by simp)
  have hl : (wire [⟨0, u⟩]).length = u.length + 2 := by simp [wire]
  unfold nrelayEncode
  rw [if_neg (by simp only [maxRelayLen]; omega), hw, encodeBytes_eq (by decide) hne]
  split
  · have := text_bound (h := c!"nrelay") (by decide) (d := wire [⟨0, u⟩]) (by omega)
    exact .inl ⟨rfl, by omega⟩
  · refine .inr ⟨_, rfl, by omega, ?_⟩
    unfold nrelayDecode
    rw [(decodeBytes_iff (by decide) _ _ 512).2 ⟨hne, by omega, rfl⟩, Res.bind_ok]
    have hp := parse_complete ⟨maxRelayLen, false, 0, false, false⟩ (by decide)
      [⟨0, u⟩] [] (by intro r hr; simp at hr; subst hr; exact h2) (by simp)
    rw [List.append_nil, if_neg (by simp [maxRelayLen]; omega)] at hp
    rw [hp, Res.bind_ok]
    simp only [meaning, lastSuch]
    simp [cstrOf_self hc, maxRelayLen]
    exact ⟨by intro h; rw [h] at h1; simp at h1, by omega⟩

/-- A non-trivial in-limit event reference (two relays, author, kind) and its round trip. -/
def sampleEvent : NEvent :=
  ⟨List.replicate 32 7, [c!"wss://relay.example.com", c!"ws://a.b"], some (List.replicate 32 9), some 30023⟩

example : InLimits (.nevent sampleEvent) := by decide +kernel

example : (neventEncode sampleEvent 300).isOk = true := by decide +kernel

/-! ## C74 relays are not dropped silently -/

/-- Sixteen distinct relay URLs of 255 characters. -/
def longRelays : List Bytes :=
  (List.range 16).map fun i => c!"wss://" ++ [UInt8.ofNat (97 + i)] ++ List.replicate 248 0x78

/-- **C74, refuted**: a profile with 16 valid relay URLs of 255 characters encodes successfully, but
the last relay is gone from the text. -/
theorem C74_relay_dropped_refuted (pk : Bytes) (hk : pk.length = 32) :
    GoodRelays longRelays ∧ longRelays.length = 16 ∧
    ∃ s, nprofileEncode ⟨pk, longRelays⟩ 8192 = .ok s ∧
      nprofileDecode s = .ok ⟨pk, longRelays.take 15⟩ := by
  have hg : GoodRelays longRelays := by decide +kernel
  have hl16 : longRelays.length = 16 := by decide +kernel
  have hg15 : GoodRelays (longRelays.take 15) := by decide +kernel
  have hsp : relaySpace (longRelays.take 15) = 3855 := by decide +kernel
  refine ⟨hg, hl16, ?_⟩
  have hlast : longRelays = longRelays.take 15 ++ longRelays.drop 15 := (List.take_append_drop _ _).symm
  have hd : longRelays.drop 15 = [c!"wss://" ++ [UInt8.ofNat 112] ++ List.replicate 248 0x78] := by
    decide +kernel
  have hskip : ∀ (n : Nat) (rs : List Bytes) (r out : Bytes),
      (buildRelays n rs out).length + 2 + r.length > n →
      buildRelays n (rs ++ [r]) out = buildRelays n rs out := by
    intro n rs r
    induction rs with
    | nil => intro out h; simp only [List.nil_append, buildRelays] at h ⊢; rw [if_pos (.inr h)]
    | cons x xs ih =>
      intro out h
      simp only [List.cons_append, buildRelays] at h ⊢
      split
      · rename_i hc; rw [if_pos hc] at h; exact ih _ h
      · rename_i hc; rw [if_neg hc] at h; exact ih _ h
  have hout : ([0, UInt8.ofNat pk.length] ++ pk).length = 34 := by simp [hk]
  have hbr : buildRelays 4096 (longRelays.take 15) ([0, UInt8.ofNat pk.length] ++ pk)
      = [0, UInt8.ofNat pk.length] ++ pk ++ wire ((longRelays.take 15).map (⟨1, ·⟩)) := by
    obtain ⟨kept, _, _, h3, _, h5⟩ := buildRelays_gen 4096 (longRelays.take 15)
      ([0, UInt8.ofNat pk.length] ++ pk) (by omega)
    rw [h3, h5 (good_len hg15)]
    rw [wire_relays_length]
    have := hsp
    unfold relaySpace at this
    omega
  have heq : buildTlv 4096 pk longRelays none none = buildTlv 4096 pk (longRelays.take 15) none none := by
    unfold buildTlv
    have t1 : longRelays.take maxRelays = longRelays := take_all (by rw [hl16]; decide)
    have t2 : (longRelays.take 15).take maxRelays = longRelays.take 15 := by
      rw [List.take_take]; rfl
    rw [t1, t2]
    have hpos : pk.length > 0 := by omega
    simp only [hpos, if_true]
    have : buildRelays 4096 longRelays ([0, UInt8.ofNat pk.length] ++ pk)
        = buildRelays 4096 (longRelays.take 15) ([0, UInt8.ofNat pk.length] ++ pk) := by
      conv => lhs; rw [hlast, hd]
      apply hskip
      rw [hbr, List.length_append, wire_relays_length]
      have := hsp
      unfold relaySpace at this
      have : (c!"wss://" ++ [UInt8.ofNat 112] ++ List.replicate 248 0x78).length = 255 := by decide +kernel
      omega
    rw [this]
  have hrt := C06_nprofile_roundtrip ⟨pk, longRelays.take 15⟩ ⟨hk, hg15, by simp only [hsp]; omega⟩ 8192
  rcases hrt with ⟨_, h⟩ | ⟨s, h1, _, h2⟩
  · omega
  · refine ⟨s, ?_, h2⟩
    unfold nprofileEncode at h1 ⊢
    simp only [heq]
    exact h1

/-- **C74, the part that holds**: whatever the relay strings are (too long, not a URL, too many), a
successful encoding decodes to the same public key and to a subsequence of the relays — nothing is
invented, reordered or altered.  Missing: that no relay is lost. -/
theorem C74_relays_subsequence_partial (p : NProfile) (hk : p.pubkey.length = 32) (size : Nat) (s : Bytes)
    (h : nprofileEncode p size = .ok s) :
    ∃ q, nprofileDecode s = .ok q ∧ q.pubkey = p.pubkey ∧ q.relays.Sublist p.relays := by
  have hne : p.pubkey ≠ [] := by intro h; rw [h] at hk; simp at hk
  unfold nprofileEncode at h
  simp only at h
  split at h
  · simp at h
  · rename_i hb
    obtain ⟨kept, k1, k2, k3, k4, k5⟩ := buildTlv_gen 4096 p.pubkey p.relays none none (by simp) hb
    rw [k4, encodeBytes_eq (by decide) (wire_ne (recsOf_ne hne _ _ _))] at h
    split at h
    · simp at h
    · simp only [Res.ok.injEq] at h
      subst h
      unfold nprofileDecode
      rw [(decodeBytes_iff (by decide) _ (wire (recsOf p.pubkey kept none none)) 4096).2
        ⟨wire_ne (recsOf_ne hne _ _ _), k5, rfl⟩, Res.bind_ok]
      have hp := parse_complete ⟨32, true, maxRelays, false, false⟩ (by decide)
        (recsOf p.pubkey kept none none) [] (recsOf_wf (by simp) (by omega) k2) (by simp)
      rw [List.append_nil, if_neg (recsOf_special (by simp; omega)), meaning_recsOf _ _ _ _ _ (by simp)] at hp
      rw [hp, Res.bind_ok]
      simp only [hk]
      refine ⟨_, rfl, rfl, ?_⟩
      simp only [if_true]
      exact ((List.take_sublist _ _).trans List.filter_sublist).trans (k1.trans (List.take_sublist _ _))

/-- An instance with a relay that the decoder drops. -/
example : (do nprofileDecode (← nprofileEncode ⟨List.replicate 32 1, [c!"http://x.y", c!"ws://a.b"]⟩ 200))
    = .ok ⟨List.replicate 32 1, [c!"ws://a.b"]⟩ := by decide +kernel

/-! ## C76 typos in TLV entities -/

theorem text_distance {h d d' : Bytes} (hh : h.length ≤ 41)
    (hl : (text h d).length = (text h d').length) (hmax : (text h d).length ≤ h.length + 1 + 1023)
    (h1 : 1 ≤ hamming (text h d) (text h d')) : 3 ≤ hamming (text h d) (text h d') := by
  apply Classical.byContradiction
  intro h3
  obtain ⟨_, hcl, hcf, hver⟩ := ck_spec hh d
  obtain ⟨_, hcl', hcf', hver'⟩ := ck_spec hh d'
  obtain ⟨d1, d2, _⟩ := conv_spec d
  obtain ⟨d1', d2', _⟩ := conv_spec d'
  have hF := d2.append hcf
  have hF' := d2'.append hcf'
  have hlen := hl
  simp only [text, List.length_append, List.length_map, List.length_cons, List.length_nil] at hlen hmax
  unfold text at h1 h3
  rw [hamming_append rfl, hamming_self, hamming_map hF hF'] at h1 h3
  obtain ⟨e, he⟩ := hrpExpand_some hh
  simp only [verifyChecksum, he, beq_iff_eq] at hver hver'
  rw [polymod_eq, List.map_append, polyFrom_append] at hver hver'
  refine detect_two _ _ ?_ hF hF' ?_ (polyFrom 1#32 (e.map w32)) ?_ (by omega) (by omega)
    (hver.trans hver'.symm)
  · simp only [List.length_append]; omega
  · simp only [List.length_append]; omega
  · have := polymod_bound e
    rwa [polymod_eq] at this

theorem decode_typo {h s s' d : Bytes} {n : Nat} (hh : h.length ≤ 41) (hd : decodeBytes s h n = .ok d)
    (hlen : s'.length = s.length) (hmax : s.length ≤ h.length + 1 + 1023)
    (h1 : 1 ≤ hamming s s') (h2 : hamming s s' ≤ 2) : decodeBytes s' h n = .err .encoding := by
  cases hd' : decodeBytes s' h n with
  | ub => exact absurd hd' (decodeBytes_noub _ _ _)
  | err e => rw [decodeBytes_err hd']
  | ok d' =>
    exfalso
    obtain ⟨_, _, rfl⟩ := (decodeBytes_iff hh s d n).1 hd
    obtain ⟨_, _, rfl⟩ := (decodeBytes_iff hh s' d' n).1 hd'
    have := text_distance hh hlen.symm hmax h1
    omega

/-- **C76**: one or two substituted characters anywhere in an accepted `nprofile`, `nevent`, `naddr`
or `nrelay` text with at most 1023 characters after the separator are always rejected. -/
theorem C76_entity_typo_rejected (s s' : Bytes) (hlen : s'.length = s.length)
    (h1 : 1 ≤ hamming s s') (h2 : hamming s s' ≤ 2) :
    (∀ p, nprofileDecode s = .ok p → s.length ≤ 9 + 1023 → nprofileDecode s' = .err .encoding) ∧
    (∀ p, neventDecode s = .ok p → s.length ≤ 7 + 1023 → neventDecode s' = .err .encoding) ∧
    (∀ p, naddrDecode s = .ok p → s.length ≤ 6 + 1023 → naddrDecode s' = .err .encoding) ∧
    (∀ p, nrelayDecode s = .ok p → s.length ≤ 7 + 1023 → nrelayDecode s' = .err .encoding) := by
  refine ⟨?_, ?_, ?_, ?_⟩
  · intro p hp hm
    unfold nprofileDecode at hp ⊢
    obtain ⟨d, hd, _⟩ := Res.bind_eq_ok.1 hp
    rw [decode_typo (by decide) hd hlen (by simpa using hm) h1 h2]; rfl
  · intro p hp hm
    unfold neventDecode at hp ⊢
    obtain ⟨d, hd, _⟩ := Res.bind_eq_ok.1 hp
    rw [decode_typo (by decide) hd hlen (by simpa using hm) h1 h2]; rfl
  · intro p hp hm
    unfold naddrDecode at hp ⊢
    obtain ⟨d, hd, _⟩ := Res.bind_eq_ok.1 hp
    rw [decode_typo (by decide) hd hlen (by simpa using hm) h1 h2]; rfl
  · intro p hp hm
    unfold nrelayDecode at hp ⊢
    obtain ⟨d, hd, _⟩ := Res.bind_eq_ok.1 hp
    rw [decode_typo (by decide) hd hlen (by simpa using hm) h1 h2]; rfl

/-! ## C08 URIs -/

theorem encode32_take {pre key s : Bytes} (h : encode32 pre key = .ok s) :
    s.take (pre.length + 1) = pre ++ c!"1" := by
  unfold encode32 at h
  simp only at h
  split at h
  · simp at h
  · split at h
    · simp at h
    · simp only [Res.ok.injEq] at h
      rw [← h, List.append_assoc]
      have : pre.length + 1 = (pre ++ c!"1").length := by simp
      rw [this, List.take_left]

theorem text_take (h d : Bytes) (n : Nat) (hn : n = h.length + 1) :
    (text h d).take n = h ++ c!"1" := by
  subst hn
  unfold text
  have : h.length + 1 = (h ++ c!"1").length := by simp
  rw [this, List.take_left]

theorem encodeBytes_take {d h s : Bytes} {n : Nat} (hs : encodeBytes d h n = .ok s) :
    s.take (h.length + 1) = h ++ c!"1" := by
  unfold encodeBytes at hs
  simp only at hs
  split at hs
  · simp at hs
  · split at hs
    · simp at hs
    · split at hs
      · simp at hs
      · simp only [Res.ok.injEq] at hs
        rw [← hs, List.append_assoc]
        have : h.length + 1 = (h ++ c!"1").length := by simp
        rw [this, List.take_left]

theorem take_le_of_take {s a : Bytes} {n m : Nat} (h : s.take n = a) (hm : m ≤ n) :
    s.take m = a.take m := by
  rw [← h, List.take_take, Nat.min_eq_left hm]

/-- **C08** (round trip).  For every in-limit entity of the seven types and every buffer: encoding
either reports too small a buffer (never for 6576 bytes or more) or writes a URI that fits with its
NUL and parses back to the same entity of the same type. -/
theorem C08_parse_encode (junk : Bytes) (u : Uri) (hu : InLimits u) (size : Nat) :
    (uriEncode u size = .err .invalidParam ∧ size < 6576) ∨
    ∃ s, uriEncode u size = .ok s ∧ s.length + 1 ≤ size ∧ uriParse junk s = .ok u := by
  unfold uriEncode
  by_cases h7 : size < 7
  · exact .inl ⟨if_pos h7, by omega⟩
  rw [if_neg h7]
  have fin : ∀ (r : Res Bytes) (t : Nat), (r = .err .invalidParam ∧ size - 6 < 6570) ∨
      (∃ s, r = .ok s ∧ s.length + 1 ≤ size - 6 ∧ uriParse junk (c!"nostr:" ++ s) = .ok u) →
      ((do let body ← r; return c!"nostr:" ++ body : Res Bytes) = .err .invalidParam ∧ size < 6576) ∨
      ∃ s, (do let body ← r; return c!"nostr:" ++ body : Res Bytes) = .ok s ∧ s.length + 1 ≤ size ∧
        uriParse junk s = .ok u := by
    rintro r _ (⟨rfl, h⟩ | ⟨s, rfl, h1, h2⟩)
    · exact .inl ⟨rfl, by omega⟩
    · exact .inr ⟨_, rfl, by simp; omega, h2⟩
  have hpre : ∀ s : Bytes, (c!"nostr:" ++ s).take 6 = c!"nostr:" := fun s => rfl
  have hdrop : ∀ s : Bytes, (c!"nostr:" ++ s).drop 6 = s := fun s => rfl
  cases u with
  | npub k =>
    apply fin _ 0
    by_cases hs : size - 6 < 64
    · left; exact ⟨by simp only [keyToBech32]; rw [if_pos (.inr (by simpa using hs))], by omega⟩
    · right
      obtain ⟨s, a, b, _, d⟩ := Nostr.Bech32.Props.C01_key_roundtrip k c!"npub" (size - 6) hu (by decide)
        (by decide) (by simp; omega)
      refine ⟨s, a, b, ?_⟩
      have he : encode32 c!"npub" k = .ok s := by
        unfold keyToBech32 at a; split at a
        · simp at a
        · exact a
      have ht := encode32_take he
      unfold uriParse
      rw [if_neg (by rw [hpre]; simp)]
      simp only [hdrop]
      rw [if_pos (by simpa using ht), d]; rfl
  | nsec k =>
    apply fin _ 0
    by_cases hs : size - 6 < 64
    · left; exact ⟨by simp only [privkeyToBech32]; rw [if_pos hs], by omega⟩
    · right
      obtain ⟨s, a, b, _, d⟩ := Nostr.Bech32.Props.C01_privkey_roundtrip junk k (size - 6) hu (by omega)
      refine ⟨s, a, b, ?_⟩
      have he : encode32 c!"nsec" k = .ok s := by
        unfold privkeyToBech32 at a; split at a
        · simp at a
        · exact a
      have ht : s.take 5 = c!"nsec1" := by simpa using encode32_take he
      unfold uriParse
      rw [if_neg (by rw [hpre]; simp)]
      simp only [hdrop, ht]
      rw [if_neg (by decide), if_pos trivial, d]; rfl
  | note k =>
    apply fin _ 0
    by_cases hs : size - 6 < 64
    · left; exact ⟨by simp only [eventIdToBech32]; rw [if_pos hs], by omega⟩
    · right
      obtain ⟨s, a, b, _, d⟩ := Nostr.Bech32.Props.C01_eventid_roundtrip junk k (size - 6) hu (by omega)
      refine ⟨s, a, b, ?_⟩
      have he : encode32 c!"note" k = .ok s := by
        unfold eventIdToBech32 at a; split at a
        · simp at a
        · exact a
      have ht : s.take 5 = c!"note1" := by simpa using encode32_take he
      unfold uriParse
      rw [if_neg (by rw [hpre]; simp)]
      simp only [hdrop, ht]
      rw [if_neg (by decide), if_neg (by decide), if_pos trivial, d]; rfl
  | nprofile p =>
    apply fin _ 0
    rcases C06_nprofile_roundtrip p hu (size - 6) with h | ⟨s, a, b, d⟩
    · exact .inl h
    · refine .inr ⟨s, a, b, ?_⟩
      have ht : s.take 9 = c!"nprofile1" := by
        unfold nprofileEncode at a
        simp only at a
        split at a
        · simp at a
        · simpa using encodeBytes_take a
      have h5 : s.take 5 = c!"nprof" := take_le_of_take ht (by decide)
      unfold uriParse
      rw [if_neg (by rw [hpre]; simp)]
      simp only [hdrop, h5, ht]
      rw [if_neg (by decide), if_neg (by decide), if_neg (by decide), if_pos trivial, d]; rfl
  | nevent e =>
    apply fin _ 0
    rcases C06_nevent_roundtrip e hu (size - 6) with h | ⟨s, a, b, d⟩
    · exact .inl h
    · refine .inr ⟨s, a, b, ?_⟩
      have ht : s.take 7 = c!"nevent1" := by
        unfold neventEncode at a
        simp only at a
        split at a
        · simp at a
        · simpa using encodeBytes_take a
      have h5 : s.take 5 = c!"neven" := take_le_of_take ht (by decide)
      have h9 : s.take 9 ≠ c!"nprofile1" := by
        intro h; have := take_le_of_take h (m := 7) (by decide); rw [ht] at this; revert this; decide
      unfold uriParse
      rw [if_neg (by rw [hpre]; simp)]
      simp only [hdrop, h5, ht]
      rw [if_neg (by decide), if_neg (by decide), if_neg (by decide), if_neg h9, if_pos trivial, d]; rfl
  | naddr x =>
    apply fin _ 0
    rcases C06_naddr_roundtrip x hu (size - 6) with h | ⟨s, a, b, d⟩
    · exact .inl h
    · refine .inr ⟨s, a, b, ?_⟩
      have ht : s.take 6 = c!"naddr1" := by
        unfold naddrEncode at a
        simp only at a
        split at a
        · simp at a
        · simpa using encodeBytes_take a
      have h5 : s.take 5 = c!"naddr" := take_le_of_take ht (by decide)
      have h9 : s.take 9 ≠ c!"nprofile1" := by
        intro h; have := take_le_of_take h (m := 6) (by decide); rw [ht] at this; revert this; decide
      have h7 : s.take 7 ≠ c!"nevent1" := by
        intro h; have := take_le_of_take h (m := 6) (by decide); rw [ht] at this; revert this; decide
      unfold uriParse
      rw [if_neg (by rw [hpre]; simp)]
      simp only [hdrop, h5, ht]
      rw [if_neg (by decide), if_neg (by decide), if_neg (by decide), if_neg h9, if_neg h7,
        if_pos trivial, d]; rfl
  | nrelay x =>
    apply fin _ 0
    rcases C06_nrelay_roundtrip x hu (size - 6) with h | ⟨s, a, b, d⟩
    · exact .inl h
    · refine .inr ⟨s, a, b, ?_⟩
      have ht : s.take 7 = c!"nrelay1" := by
        unfold nrelayEncode at a
        split at a
        · simp at a
        · simpa using encodeBytes_take a
      have h5 : s.take 5 = c!"nrela" := take_le_of_take ht (by decide)
      have h6 : s.take 6 = c!"nrelay" := take_le_of_take ht (by decide)
      have h9 : s.take 9 ≠ c!"nprofile1" := by
        intro h; have := take_le_of_take h (m := 7) (by decide); rw [ht] at this; revert this; decide
      unfold uriParse
      rw [if_neg (by rw [hpre]; simp)]
      simp only [hdrop, h5, h6, ht]
      rw [if_neg (by decide), if_neg (by decide), if_neg (by decide), if_neg h9, if_neg (by decide),
        if_neg (by decide), if_pos trivial, d]; rfl

example : InLimits (.naddr ⟨c!"hello", List.replicate 32 3, 30023, [c!"wss://r.example"]⟩) ∧
    InLimits (.nrelay c!"wss://relay.example.com") ∧ InLimits (.nsec (List.replicate 32 5)) := by
  refine ⟨by decide +kernel, by decide +kernel, by decide +kernel⟩

/-- **C08** (right kind).  Whatever the text, a successful parse returns an entity whose type is the
one named in the text: the text starts with `nostr:`, the entity's human-readable part, and `1`. -/
theorem C08_parse_kind (junk s : Bytes) (u : Uri) (h : uriParse junk s = .ok u) :
    c!"nostr:" ++ hrp u ++ c!"1" <+: s := by
  unfold uriParse at h
  split at h
  · simp at h
  · rename_i h6
    simp only [ne_eq, Decidable.not_not] at h6
    have key : ∀ (n : Nat) (p : Bytes), (s.drop 6).take n = p → c!"nostr:" ++ p <+: s := by
      intro n p hp
      refine ⟨(s.drop 6).drop n, ?_⟩
      rw [List.append_assoc, ← hp, List.take_append_drop, ← h6, List.take_append_drop]
    have fin : ∀ {α : Type} (f : α → Uri) (r : Res α) (p : Bytes), f <$> r = .ok u →
        (∀ a, hrp (f a) = p) → hrp u = p := by
      intro α f r p hr hp
      cases r with
      | ok a => simp at hr; rw [← hr]; exact hp a
      | err e => simp at hr
      | ub => simp at hr
    simp only at h
    split at h
    · rename_i hc; rw [fin _ _ c!"npub" h (fun _ => rfl)]; exact key _ _ hc
    · split at h
      · rename_i hc; rw [fin _ _ c!"nsec" h (fun _ => rfl)]; exact key _ _ hc
      · split at h
        · rename_i hc; rw [fin _ _ c!"note" h (fun _ => rfl)]; exact key _ _ hc
        · split at h
          · rename_i hc; rw [fin _ _ c!"nprofile" h (fun _ => rfl)]; exact key _ _ hc
          · split at h
            · rename_i hc; rw [fin _ _ c!"nevent" h (fun _ => rfl)]; exact key _ _ hc
            · split at h
              · rename_i hc; rw [fin _ _ c!"naddr" h (fun _ => rfl)]; exact key _ _ hc
              · split at h
                · rename_i hc; rw [fin _ _ c!"nrelay" h (fun _ => rfl)]; exact key _ _ hc
                · simp at h

/-! ## C75 parsing an untrusted URI is memory safe -/

/-- **C75, refuted**: a 96-character `nostr:npub1…` URI writes past the end of a stack array. -/
theorem C75_uri_overflow_refuted (junk : Bytes) :
    uriParse junk (c!"nostr:npub1" ++ List.replicate 85 0x71) = .ub := by
  have : uriParse junk (c!"nostr:npub1" ++ List.replicate 85 0x71)
      = Uri.npub <$> keyFromBech32 (c!"npub1" ++ List.replicate 85 0x71) := by rfl
  rw [this, Nostr.Bech32.Props.C05_npub_overflow_refuted]; rfl

theorem decode_then_noub {α : Type} (s h : Bytes) (n : Nat) (a : TlvArgs) (ha : a.maxRelays ≤ 16)
    (k : Tlv → Res α) (hk : ∀ t, k t ≠ .ub) :
    (do let data ← decodeBytes s h n; let t ← parseTlv a data; k t : Res α) ≠ .ub := by
  intro hu
  rw [Res.bind_eq_ub] at hu
  rcases hu with hu | ⟨d, _, hu⟩
  · exact decodeBytes_noub _ _ _ hu
  · rw [Res.bind_eq_ub] at hu
    rcases hu with hu | ⟨t, _, hu⟩
    · rcases C07_parse_total a ha d with h | ⟨t, h, _⟩ <;> rw [h] at hu <;> simp at hu
    · exact hk t hu

/-- **C75, the part that holds**: every TLV decoder is memory safe on every text, and URIs of length
up to 92 or above 96 never overrun a buffer (93..96 characters are the npub/nsec/note overflow). -/
theorem C75_uri_in_bounds_partial (junk s : Bytes) (hj : junk.length = 84) :
    nprofileDecode s ≠ .ub ∧ neventDecode s ≠ .ub ∧ naddrDecode s ≠ .ub ∧ nrelayDecode s ≠ .ub ∧
    (s.length ≤ 92 ∨ 96 < s.length → uriParse junk s ≠ .ub) := by
  have d1 : ∀ s, nprofileDecode s ≠ .ub := fun s =>
    decode_then_noub s _ _ _ (by decide) _ (by intro t; split <;> simp)
  have d2 : ∀ s, neventDecode s ≠ .ub := fun s =>
    decode_then_noub s _ _ _ (by decide) _ (by intro t; split <;> simp)
  have d3 : ∀ s, naddrDecode s ≠ .ub := fun s =>
    decode_then_noub s _ _ _ (by decide) _ (by
      intro t; split
      · split <;> simp
      · simp)
  have d4 : ∀ s, nrelayDecode s ≠ .ub := fun s =>
    decode_then_noub s _ _ _ (by decide) _ (by intro t; split <;> simp)
  refine ⟨d1 s, d2 s, d3 s, d4 s, ?_⟩
  intro hl
  have mapub : ∀ {α : Type} (f : α → Uri) (r : Res α), r ≠ .ub → f <$> r ≠ .ub := by
    intro α f r hr; cases r <;> simp_all
  obtain ⟨k1, k2⟩ := Nostr.Bech32.Props.C05_decode_in_bounds_partial junk (s.drop 6) hj
  unfold uriParse
  split
  · simp
  · simp only
    have hlen : (s.drop 6).length = s.length - 6 := List.length_drop
    rw [hlen] at k1 k2
    split
    · exact mapub _ _ (k1 (by omega))
    · split
      · exact mapub _ _ (k2 (by omega)).1
      · split
        · exact mapub _ _ (k2 (by omega)).2
        · split
          · exact mapub _ _ (d1 _)
          · split
            · exact mapub _ _ (d2 _)
            · split
              · exact mapub _ _ (d3 _)
              · split
                · exact mapub _ _ (d4 _)
                · simp

end Nostr.Nip21.Props
