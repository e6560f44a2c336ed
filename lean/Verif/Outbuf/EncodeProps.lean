import Verif.Outbuf.Encode
import Verif.Outbuf.Spec
import Verif.Nip21.Props
import Verif.Nip49.Props
import Verif.Nip05.Props
import Verif.Hd.Props

/-! # Property theorems: C197 -/

namespace Nostr.Outbuf.Encode.Props
open Nostr Nostr.Outbuf Nostr.Outbuf.Spec Nostr.Outbuf.Encode Nostr.Bech32

/-! ## Writing from left to right -/

/-- Memory whose first bytes are `done`, the others as they were. -/
def over (done old : Bytes) : Bytes := done ++ old.drop done.length

theorem over_nil (old : Bytes) : over [] old = old := by simp [over]

theorem over_length {done old : Bytes} (h : done.length ≤ old.length) : (over done old).length = old.length := by
  simp only [over, List.length_append, List.length_drop]; omega

theorem put_at {done old : Bytes} {c : UInt8} (h : done.length < old.length) :
    put (over done old) done.length c = .ok (over (done ++ [c]) old) := by
  unfold put over
  rw [if_pos (by simp only [List.length_append, List.length_drop]; omega)]
  rw [List.set_append_right _ _ (Nat.le_refl _), Nat.sub_self]
  have hd : old.drop done.length = old[done.length] :: old.drop (done.length + 1) := List.drop_eq_getElem_cons h
  rw [hd, List.set_cons_zero]
  simp

theorem copy_at {done old src : Bytes} (h : done.length + src.length ≤ old.length) :
    copyAt (over done old) done.length src = .ok (over (done ++ src) old) := by
  unfold copyAt over
  rw [if_pos (by simp only [List.length_append, List.length_drop]; omega), List.take_left, ← List.drop_drop,
    List.drop_left, List.drop_drop, List.length_append]

theorem putSyms_at {old : Bytes} (vs : Bytes) : ∀ done : Bytes, done.length + vs.length ≤ old.length →
    putSyms (over done old) done.length vs = .ok (over (done ++ vs.map charsetAt) old, (done ++ vs.map charsetAt).length) := by
  induction vs with
  | nil => intro done _; simp [putSyms]
  | cons v vs ih =>
    intro done h
    simp only [List.length_cons] at h
    unfold putSyms
    rw [put_at (by omega), Res.bind_ok]
    have := ih (done ++ [charsetAt v]) (by simp; omega)
    simp only [List.length_append, List.length_cons, List.length_nil, Nat.zero_add] at this
    rw [this]
    simp; omega

theorem putTail_at {old done data ck : Bytes} (h : done.length + data.length + ck.length < old.length) :
    putTail (over done old) done.length data ck
      = .ok (over (done ++ data.map charsetAt ++ ck.map charsetAt ++ [0]) old) := by
  unfold putTail
  rw [putSyms_at _ _ (by omega), Res.bind_ok]
  simp only []
  rw [putSyms_at _ _ (by simp; omega), Res.bind_ok]
  simp only []
  rw [put_at (by simp; omega)]

theorem written_over {old text : Bytes} (h : text.length < old.length) : Written old text (over (text ++ [0]) old) := by
  refine ⟨h, ?_⟩
  simp [over]

/-- Prefix, separator, data and checksum, written piece by piece. -/
theorem assemble {old pre data ck : Bytes} (h : pre.length + 1 + data.length + ck.length < old.length) :
    ∃ new, (copyAt old 0 pre >>= fun a => put a pre.length 0x31 >>= fun a =>
        putTail a (pre.length + 1) data ck >>= fun a => (.ok (none, a) : Out)) = .ok (none, new) ∧
      Written old (pre ++ c!"1" ++ data.map charsetAt ++ ck.map charsetAt) new := by
  have h1 := copy_at (done := []) (old := old) (src := pre) (by simp; omega)
  rw [over_nil] at h1
  simp only [List.length_nil, List.nil_append] at h1
  rw [h1, Res.bind_ok, put_at (by omega), Res.bind_ok]
  have h3 := putTail_at (old := old) (done := pre ++ c!"1") (data := data) (ck := ck) (by simp; omega)
  have hl : (pre ++ c!"1").length = pre.length + 1 := by simp
  rw [hl] at h3
  rw [show pre ++ [(0x31 : UInt8)] = pre ++ c!"1" from rfl, h3, Res.bind_ok]
  exact ⟨_, rfl, written_over (by simp; omega)⟩

theorem assemble' {old pre data ck : Bytes} (h : pre.length + 1 + data.length + ck.length < old.length) {n : Nat}
    (hn : n = pre.length + 1) :
    ∃ new, (copyAt old 0 (pre ++ c!"1") >>= fun a =>
        putTail a n data ck >>= fun a => (.ok (none, a) : Out)) = .ok (none, new) ∧
      Written old (pre ++ c!"1" ++ data.map charsetAt ++ ck.map charsetAt) new := by
  subst hn
  have h1 := copy_at (done := []) (old := old) (src := pre ++ c!"1") (by simp; omega)
  rw [over_nil] at h1
  simp only [List.length_nil, List.nil_append] at h1
  have h3 := putTail_at (old := old) (done := pre ++ c!"1") (data := data) (ck := ck) (by simp; omega)
  have hl : (pre ++ c!"1").length = pre.length + 1 := by simp
  rw [hl] at h3
  rw [h1, Res.bind_ok, h3, Res.bind_ok]
  exact ⟨_, rfl, written_over (by simp; omega)⟩

/-! ## Sizes -/

theorem convertBits_pad_len {inp : Bytes} {L f t : Nat} : (convertBits inp L f t true).length ≤ L := by
  simp only [convertBits]
  split
  · simp
  · rename_i acc bits out h
    have hl := Nip21.convLoop_len _ _ _ _ _ _ _ (by simp) h
    rw [if_pos trivial]
    split
    · split
      · simp
      · simp only [List.length_append, List.length_cons, List.length_nil]; omega
    · exact hl

theorem checksum_len {hrp data ck : Bytes} (h : createChecksum hrp data = some ck) : ck.length = 6 := by
  unfold createChecksum at h
  split at h
  · cases h
  · cases h; exact checksumSyms_length _

theorem checksum_some {hrp : Bytes} (h : hrp.length ≤ 41) (data : Bytes) : ∃ ck, createChecksum hrp data = some ck := by
  obtain ⟨e, he⟩ := hrpExpand_some h
  exact ⟨_, by simp only [createChecksum, he]; rfl⟩

/-! ## Keys and event ids -/

/-- **C197** (keys): with a buffer of any size and any contents, encoding a key writes the whole text and its end at the
start of the buffer and leaves the bytes behind it alone, or reports the error and writes nothing. -/
theorem C197_key (key pre m : Bytes) : WholeOrNothing m (keyToBech32 key pre m.length) (keyTo key pre m) := by
  unfold keyToBech32 keyTo encode32
  split
  · rfl
  · rename_i hs
    have hd := convertBits_pad_len (inp := key) (L := 52) (f := 8) (t := 5)
    simp only []
    split
    · rfl
    · cases hc : createChecksum pre (convertBits key 52 8 5 true) with
      | none => rfl
      | some ck =>
        have := checksum_len hc
        exact assemble (by omega)

theorem fixed_whole (hrp key m : Bytes) (h4 : hrp.length = 4) :
    WholeOrNothing m (if m.length < 64 then .err .invalidParam else encode32 hrp key) (fixedTo hrp key m) := by
  unfold fixedTo encode32
  split
  · rfl
  · have hd := convertBits_pad_len (inp := key) (L := 52) (f := 8) (t := 5)
    simp only []
    split
    · rfl
    · cases hc : createChecksum hrp (convertBits key 52 8 5 true) with
      | none => rfl
      | some ck =>
        have := checksum_len hc
        exact assemble' (by omega) (by omega)

/-- **C197** (private keys and event ids): the same for `nsec` and `note` texts. -/
theorem C197_privkey_note (key m : Bytes) :
    WholeOrNothing m (privkeyToBech32 key m.length) (fixedTo c!"nsec" key m) ∧
    WholeOrNothing m (eventIdToBech32 key m.length) (fixedTo c!"note" key m) :=
  ⟨fixed_whole _ _ _ rfl, fixed_whole _ _ _ rfl⟩

/-! ## Entities and URIs -/

theorem bytes_whole (d hrp m : Bytes) (h : hrp.length ≤ 41) : WholeOrNothing m (Nip21.encodeBytes d hrp m.length) (bytesTo d hrp m) := by
  unfold Nip21.encodeBytes bytesTo
  simp only []
  split
  · rfl
  · split
    · rfl
    · obtain ⟨ck, hc⟩ := checksum_some h (convertBits d ((d.length * 8 + 4) / 5) 8 5 true)
      have := checksum_len hc
      rw [hc]
      exact assemble (by omega)

theorem tlv_whole (tlv hrp m : Bytes) (h : hrp.length ≤ 41) :
    WholeOrNothing m (if tlv = [] then .err .encoding else Nip21.encodeBytes tlv hrp m.length)
      (if tlv = [] then refuse .encoding m else bytesTo tlv hrp m) := by
  split
  · rfl
  · exact bytes_whole _ _ _ h

theorem nprofile_whole (p : Nip21.NProfile) (m : Bytes) : WholeOrNothing m (Nip21.nprofileEncode p m.length) (nprofileTo p m) :=
  tlv_whole _ _ _ (by decide)

theorem nevent_whole (e : Nip21.NEvent) (m : Bytes) : WholeOrNothing m (Nip21.neventEncode e m.length) (neventTo e m) :=
  tlv_whole _ _ _ (by decide)

theorem naddr_whole (a : Nip21.NAddr) (m : Bytes) : WholeOrNothing m (Nip21.naddrEncode a m.length) (naddrTo a m) :=
  tlv_whole _ _ _ (by decide)

theorem nrelay_whole (url m : Bytes) : WholeOrNothing m (Nip21.nrelayEncode url m.length) (nrelayTo url m) := by
  unfold Nip21.nrelayEncode nrelayTo
  split
  · rfl
  · exact bytes_whole _ _ _ (by decide)

/-- **C197** (profiles, events, addresses, relays): the same for every entity, whatever its fields hold. -/
theorem C197_entities (m : Bytes) :
    (∀ p, WholeOrNothing m (Nip21.nprofileEncode p m.length) (nprofileTo p m)) ∧
    (∀ e, WholeOrNothing m (Nip21.neventEncode e m.length) (neventTo e m)) ∧
    (∀ a, WholeOrNothing m (Nip21.naddrEncode a m.length) (naddrTo a m)) ∧
    (∀ url, WholeOrNothing m (Nip21.nrelayEncode url m.length) (nrelayTo url m)) :=
  ⟨fun p => nprofile_whole p m, fun e => nevent_whole e m, fun a => naddr_whole a m, fun u => nrelay_whole u m⟩

/-- The text behind "nostr:" at a given size (the seven cases of `Nip21.uriEncode`). -/
def bodyText (u : Nip21.Uri) (size : Nat) : Res Bytes :=
  match u with
  | .npub k => keyToBech32 k c!"npub" size
  | .nsec k => privkeyToBech32 k size
  | .note i => eventIdToBech32 i size
  | .nprofile p => Nip21.nprofileEncode p size
  | .nevent e => Nip21.neventEncode e size
  | .naddr a => Nip21.naddrEncode a size
  | .nrelay r => Nip21.nrelayEncode r size

theorem uriEncode_eq (u : Nip21.Uri) (size : Nat) : Nip21.uriEncode u size =
    if size < 7 then .err .invalidParam else bodyText u (size - 6) >>= fun b => .ok (c!"nostr:" ++ b) := by
  unfold Nip21.uriEncode bodyText
  split
  · rfl
  · cases u <;> rfl

theorem body_whole (u : Nip21.Uri) (m : Bytes) : WholeOrNothing m (bodyText u m.length) (bodyTo u m) := by
  cases u with
  | npub k => exact C197_key _ _ _
  | nsec k => exact (C197_privkey_note _ _).1
  | note i => exact (C197_privkey_note _ _).2
  | nprofile p => exact nprofile_whole _ _
  | nevent e => exact nevent_whole _ _
  | naddr a => exact naddr_whole _ _
  | nrelay r => exact nrelay_whole _ _

/-- **C197** (URIs): the same for `nostr:` texts of every kind: when the entity is refused, the six bytes in front of it are
not touched either. -/
theorem C197_uri (u : Nip21.Uri) (m : Bytes) : WholeOrNothing m (Nip21.uriEncode u m.length) (uriTo u m) := by
  rw [uriEncode_eq]
  unfold uriTo
  split
  · rfl
  · rename_i h7
    have hb := body_whole u (m.drop 6)
    rw [List.length_drop] at hb
    have h6 : (m.take 6).length = 6 := by rw [List.length_take]; omega
    cases ht : bodyText u (m.length - 6) with
    | ub => rw [ht] at hb; exact hb.elim
    | err x =>
      rw [ht] at hb
      have hb : bodyTo u (m.drop 6) = .ok (some x, m.drop 6) := hb
      rw [hb, Res.bind_ok]
      simp only []
      rw [List.take_append_drop]
      rfl
    | ok b =>
      rw [ht] at hb
      obtain ⟨new, hn, hlt, hw⟩ := hb
      rw [hn, Res.bind_ok, Res.bind_ok]
      simp only []
      rw [List.length_drop] at hlt
      have hc : copyAt (m.take 6 ++ new) 0 c!"nostr:" = .ok (c!"nostr:" ++ new) := by
        unfold copyAt
        rw [if_pos (by
          rw [List.length_append, h6]
          show 0 + 6 ≤ _
          omega)]
        show Res.ok ([] ++ c!"nostr:" ++ (m.take 6 ++ new).drop (0 + 6)) = _
        rw [Nat.zero_add, List.drop_append_of_le_length (by omega), List.drop_of_length_le (by omega)]
        rfl
      rw [hc, Res.bind_ok]
      have hl : (c!"nostr:" ++ b).length = 6 + b.length := by simp; omega
      refine ⟨_, rfl, by rw [hl]; omega, ?_⟩
      rw [hw, hl, List.drop_drop, ← List.append_assoc, show 6 + b.length + 1 = 6 + (b.length + 1) by omega]

/-! ## Addresses of well-known documents -/

/-- **C197** (address of the NIP-05 document). -/
theorem C197_url (name domain m : Bytes) : WholeOrNothing m (Nip05.buildUrl name domain m.length) (urlTo name domain m) := by
  have hl : (c!"https://" ++ domain ++ c!"/.well-known/nostr.json?name=" ++ name).length = 37 + domain.length + name.length := by
    simp only [List.length_append]
    show 8 + domain.length + 29 + name.length = _
    omega
  unfold Nip05.buildUrl urlTo
  split
  · rfl
  · split
    · rfl
    · rename_i hs
      rw [if_neg (by rw [hl]; omega)]
      have h1 := copy_at (done := []) (old := m) (src := c!"https://") (by simp; omega)
      rw [over_nil] at h1
      simp only [List.length_nil, List.nil_append] at h1
      have h2 := copy_at (done := c!"https://") (old := m) (src := domain) (by show 8 + _ ≤ _; omega)
      have h3 := copy_at (done := c!"https://" ++ domain) (old := m) (src := c!"/.well-known/nostr.json?name=") (by
        rw [List.length_append]; show 8 + domain.length + 29 ≤ _; omega)
      rw [List.length_append] at h3
      have h4 := copy_at (done := c!"https://" ++ domain ++ c!"/.well-known/nostr.json?name=") (old := m) (src := name) (by
        simp only [List.length_append]; show 8 + domain.length + 29 + _ ≤ _; omega)
      simp only [List.length_append] at h4
      have h5 := put_at (done := c!"https://" ++ domain ++ c!"/.well-known/nostr.json?name=" ++ name) (old := m) (c := 0) (by omega)
      simp only [List.length_append] at h5
      have e2 : copyAt (over c!"https://" m) 8 domain = _ := h2
      have e3 : copyAt (over (c!"https://" ++ domain) m) (8 + domain.length) c!"/.well-known/nostr.json?name=" = _ := h3
      have e4 : copyAt (over (c!"https://" ++ domain ++ c!"/.well-known/nostr.json?name=") m) (8 + domain.length + 29) name = _ := h4
      have e5 : put (over (c!"https://" ++ domain ++ c!"/.well-known/nostr.json?name=" ++ name) m)
        (8 + domain.length + 29 + name.length) 0 = _ := h5
      rw [h1, Res.bind_ok, e2, Res.bind_ok, e3, Res.bind_ok, e4, Res.bind_ok, e5, Res.bind_ok]
      exact ⟨_, rfl, written_over (by omega)⟩

/-! ## Encrypted private keys -/

/-- **C197** (encrypted private keys): the same for `ncryptsec` texts, whatever the random generator, scrypt and the cipher
deliver. -/
theorem C197_ncryptsec (L : Nip49.Lib) (salt nonce : Option Bytes) (privkey password : Bytes) (logN : UInt8) (m : Bytes) :
    WholeOrNothing m (Nip49.encrypt L salt nonce privkey password logN m.length)
      (ncryptsecTo L salt nonce privkey password logN m) := by
  unfold Nip49.encrypt ncryptsecTo
  split
  · rfl
  · rename_i hp
    have hs : ¬ m.length < 163 := fun h => hp (Or.inr (Or.inr (Or.inr h)))
    cases salt with
    | none => rfl
    | some salt =>
      cases nonce with
      | none => rfl
      | some nonce =>
        simp only []
        cases Nip49.deriveKey L password salt logN with
        | none => rfl
        | some key =>
          simp only []
          cases Nip49.xEncrypt L key nonce [2] privkey with
          | none => rfl
          | some r =>
            obtain ⟨ct, mac⟩ := r
            simp only []
            have hd := convertBits_pad_len (inp := [2, logN] ++ salt ++ nonce ++ [2] ++ ct ++ mac) (L := 146) (f := 8) (t := 5)
            split
            · rfl
            · obtain ⟨ck, hc⟩ := checksum_some (hrp := c!"ncryptsec") (by decide)
                (convertBits ([2, logN] ++ salt ++ nonce ++ [2] ++ ct ++ mac) 146 8 5 true)
              have := checksum_len hc
              rw [hc]
              exact assemble' (pre := c!"ncryptsec") (by show 9 + 1 + _ + _ < _; omega) rfl

/-! ## Exactly the room of the text -/

/-- One text, delivered exactly when it and its end fit. -/
def Roomy (f : Nat → Res Bytes) : Prop :=
  ∃ s, s ≠ [] ∧ ∀ n, f n = if s.length < n then .ok s else .err .invalidParam

theorem key_roomy' {key pre : Bytes} (hk : key.length = 32) (h0 : pre ≠ []) (hp : pre.length ≤ 41) :
    ∃ s, s ≠ [] ∧ ((∀ c ∈ pre, c < 128) → Bip173.IsText pre key s) ∧
      ∀ n, keyToBech32 key pre n = if s.length < n then .ok s else .err .invalidParam := by
  obtain ⟨ck, _, hl, hf, he, hv⟩ := encode32_ok hp hk
  obtain ⟨hd, hf2, hb⟩ := conv_key hk
  have hp0 : pre.length ≠ 0 := by simpa using h0
  refine ⟨pre ++ c!"1" ++ (convertBits key 52 8 5 true).map charsetAt ++ ck.map charsetAt, by simp, fun ha => ?_, fun n => ?_⟩
  · have := Nip21.Props.isText ha hl hf2 hf hv ⟨4, by omega, hb⟩
    rw [List.map_append, ← List.append_assoc] at this
    exact this
  · unfold keyToBech32
    rw [he]
    have hL : (pre ++ c!"1" ++ (convertBits key 52 8 5 true).map charsetAt ++ ck.map charsetAt).length = pre.length + 59 := by
      simp; omega
    by_cases hn : n < pre.length + 1 + 52 + 6 + 1
    · rw [if_pos (Or.inr hn), if_neg (by rw [hL]; omega)]
    · rw [if_neg (by omega), if_pos (by rw [hL]; omega)]

theorem key_roomy {key pre : Bytes} (hk : key.length = 32) (h0 : pre ≠ []) (hp : pre.length ≤ 41) : Roomy (keyToBech32 key pre) := by
  obtain ⟨s, h1, _, h2⟩ := key_roomy' hk h0 hp
  exact ⟨s, h1, h2⟩

theorem encode_roomy {d hrp : Bytes} (hd : d ≠ []) (h : hrp.length ≤ 41) : Roomy (Nip21.encodeBytes d hrp) := by
  refine ⟨Nip21.text hrp d, ?_, fun n => ?_⟩
  · intro h0
    have := Nip21.text_length h d
    rw [h0] at this
    simp only [List.length_nil] at this
    omega
  · rw [Nip21.encodeBytes_eq h hd]
    by_cases hn : (Nip21.text hrp d).length < n
    · rw [if_pos hn, if_neg (by omega)]
    · rw [if_neg hn, if_pos (by omega)]

theorem tlv_roomy (tlv hrp : Bytes) (h : hrp.length ≤ 41) (f : Nat → Res Bytes)
    (hf : ∀ n, f n = if tlv = [] then .err .encoding else Nip21.encodeBytes tlv hrp n) :
    Roomy f ∨ ∀ n, ∃ x, f n = .err x := by
  by_cases ht : tlv = []
  · exact .inr fun n => ⟨.encoding, by rw [hf, if_pos ht]⟩
  · obtain ⟨s, h0, hs⟩ := encode_roomy ht h
    exact .inl ⟨s, h0, fun n => by rw [hf, if_neg ht, hs]⟩

theorem fixed_key (hrp key : Bytes) (n : Nat) (h4 : hrp.length = 4) :
    (if n < 64 then .err .invalidParam else encode32 hrp key) = keyToBech32 key hrp n := by
  unfold keyToBech32
  by_cases h : n < 64
  · rw [if_pos h, if_pos (by omega)]
  · rw [if_neg h, if_neg (by omega)]

/-- Keys and ids have 32 bytes. -/
def Sized : Nip21.Uri → Prop
  | .npub k | .nsec k | .note k => k.length = 32
  | _ => True

theorem body_roomy (u : Nip21.Uri) (hu : Sized u) : Roomy (bodyText u) ∨ ∀ n, ∃ x, bodyText u n = .err x := by
  cases u with
  | npub k => exact .inl (key_roomy hu (by decide) (by decide))
  | nsec k =>
    obtain ⟨s, h0, h⟩ := key_roomy (pre := c!"nsec") hu (by decide) (by decide)
    exact .inl ⟨s, h0, fun n => by rw [← h n]; exact fixed_key _ _ _ rfl⟩
  | note i =>
    obtain ⟨s, h0, h⟩ := key_roomy (pre := c!"note") hu (by decide) (by decide)
    exact .inl ⟨s, h0, fun n => by rw [← h n]; exact fixed_key _ _ _ rfl⟩
  | nprofile p => exact tlv_roomy _ c!"nprofile" (by decide) _ (fun _ => rfl)
  | nevent e => exact tlv_roomy _ c!"nevent" (by decide) _ (fun _ => rfl)
  | naddr a => exact tlv_roomy _ c!"naddr" (by decide) _ (fun _ => rfl)
  | nrelay r =>
    show Roomy (Nip21.nrelayEncode r) ∨ ∀ n, ∃ x, Nip21.nrelayEncode r n = .err x
    by_cases h : r.length = 0 ∨ r.length ≥ Nip21.maxRelayLen
    · exact .inr fun n => ⟨.invalidParam, by unfold Nip21.nrelayEncode; rw [if_pos h]⟩
    · obtain ⟨s, h0, hs⟩ := encode_roomy (d := [0, UInt8.ofNat r.length] ++ r) (hrp := c!"nrelay") (by simp) (by decide)
      exact .inl ⟨s, h0, fun n => by unfold Nip21.nrelayEncode; rw [if_neg h, hs]⟩

theorem uri_roomy (u : Nip21.Uri) (hu : Sized u) : Roomy (Nip21.uriEncode u) ∨ ∀ n, ∃ x, Nip21.uriEncode u n = .err x := by
  rcases body_roomy u hu with ⟨s, h0, hs⟩ | hx
  · left
    have hpos : 0 < s.length := List.length_pos_iff.2 h0
    refine ⟨c!"nostr:" ++ s, by simp, fun n => ?_⟩
    have hl : (c!"nostr:" ++ s).length = 6 + s.length := by simp; omega
    rw [uriEncode_eq, hl, hs]
    by_cases h7 : n < 7
    · rw [if_pos h7, if_neg (by omega)]
    · rw [if_neg h7]
      by_cases hn : s.length < n - 6
      · rw [if_pos hn, if_pos (by omega)]; rfl
      · rw [if_neg hn, if_neg (by omega)]; rfl
  · right
    intro n
    rw [uriEncode_eq]
    split
    · exact ⟨_, rfl⟩
    · obtain ⟨x, hx⟩ := hx (n - 6)
      exact ⟨x, by rw [hx]; rfl⟩

/-- **C197** (URIs, exactly): an entity within the limits of its fields has one text that parses back to it; a buffer with
room for the text and its end gets it, every smaller buffer stays as it was and the call reports INVALID_PARAM. -/
theorem C197_uri_room (u : Nip21.Uri) (h : Nip21.Spec.InLimits u) : ∃ s, (∀ junk, Nip21.uriParse junk s = .ok u) ∧ ∀ m : Bytes,
    (s.length < m.length → ∃ new, uriTo u m = .ok (none, new) ∧ Written m s new) ∧
    (m.length ≤ s.length → uriTo u m = .ok (some .invalidParam, m)) := by
  have hu : Sized u := by cases u <;> first | exact h | trivial
  have hok : ∀ junk, ∃ s, Nip21.uriEncode u 6576 = .ok s ∧ Nip21.uriParse junk s = .ok u := by
    intro junk
    rcases Nip21.Props.C08_parse_encode junk u h 6576 with ⟨_, hlt⟩ | ⟨s, h1, _, h2⟩
    · omega
    · exact ⟨s, h1, h2⟩
  rcases uri_roomy u hu with ⟨s, _, hs⟩ | hx
  · refine ⟨s, fun junk => ?_, fun m => ?_⟩
    · obtain ⟨t, h1, h2⟩ := hok junk
      rw [hs] at h1
      split at h1
      · cases h1; exact h2
      · cases h1
    · have hw := C197_uri u m
      rw [hs] at hw
      refine ⟨fun hm => ?_, fun hm => ?_⟩
      · rw [if_pos hm] at hw; exact hw
      · rw [if_neg (by omega)] at hw; exact hw
  · obtain ⟨t, h1, _⟩ := hok []
    obtain ⟨x, hx⟩ := hx 6576
    rw [hx] at h1
    cases h1

/-- **C197** (keys, exactly): the same for the three key texts and a prefix chosen by the caller. -/
theorem C197_key_room (key pre : Bytes) (hk : key.length = 32) (h0 : pre ≠ []) (hp : pre.length ≤ 41)
    (ha : ∀ c ∈ pre, c < 128) : ∃ s, Bip173.IsText pre key s ∧ ∀ m : Bytes,
    (s.length < m.length → ∃ new, keyTo key pre m = .ok (none, new) ∧ Written m s new) ∧
    (m.length ≤ s.length → keyTo key pre m = .ok (some .invalidParam, m)) := by
  obtain ⟨s, hn, ht, hs⟩ := key_roomy' hk h0 hp
  refine ⟨s, ht ha, fun m => ?_⟩
  · have hw := C197_key key pre m
    rw [hs] at hw
    refine ⟨fun hm => ?_, fun hm => ?_⟩
    · rw [if_pos hm] at hw; exact hw
    · rw [if_neg (by omega)] at hw; exact hw

/-! ## Mnemonics -/

theorem prefix_loop (c : Bytes) (size : Nat) : ∀ (is : List Nat) (text t : Bytes),
    Hd.writeLoop c size is text = .ok t → text <+: t := by
  intro is
  induction is with
  | nil => intro text t h; cases h; exact List.prefix_refl _
  | cons i is ih =>
    intro text t h
    unfold Hd.writeLoop at h
    rw [Hd.Props.words_at] at h
    simp only [] at h
    by_cases hlt : text.length + (Hd.words.getD (Hd.indexAt c i) []).length + (if i > 0 then 1 else 0) ≥ size
    · rw [if_pos hlt] at h; cases h
    · rw [if_neg hlt] at h
      exact ((List.prefix_append _ _).trans (List.prefix_append _ _)).trans (ih _ _ h)

/-- The word loop in memory follows the word loop on texts; when a word has no room, the words before it stay. -/
theorem words_loop (c m : Bytes) : ∀ (is : List Nat) (done : Bytes), done.length < m.length →
    match Hd.writeLoop c m.length is done with
    | .ok t => ∃ new, wordsTo c (over done m) done.length is = .ok (none, new) ∧ Written m t new
    | .err x => ∃ w, wordsTo c (over done m) done.length is = .ok (some x, over w m) ∧ w.length < m.length ∧
        ∀ big t, Hd.writeLoop c big is done = .ok t → w <+: t
    | .ub => False := by
  intro is
  induction is with
  | nil =>
    intro done h
    refine ⟨_, ?_, written_over h⟩
    unfold wordsTo
    rw [put_at h]
    rfl
  | cons i is ih =>
    intro done h
    unfold Hd.writeLoop wordsTo
    rw [Hd.Props.words_at]
    simp only []
    generalize Hd.words.getD (Hd.indexAt c i) [] = w
    rw [over_length (by omega)]
    by_cases hlt : done.length + w.length + (if i > 0 then 1 else 0) ≥ m.length
    · rw [if_pos hlt, if_pos hlt]
      refine ⟨done, rfl, h, fun big t ht => ?_⟩
      by_cases hb : done.length + w.length + (if i > 0 then 1 else 0) ≥ big
      · rw [if_pos hb] at ht; cases ht
      · rw [if_neg hb] at ht
        exact ((List.prefix_append _ _).trans (List.prefix_append _ _)).trans (prefix_loop _ _ _ _ _ ht)
    · rw [if_neg hlt, if_neg hlt]
      have ih := ih (done ++ (if i > 0 then [0x20] else []) ++ w) (by
        simp only [List.length_append]; split at hlt <;> simp [*] at * <;> omega)
      have hstep : (if i > 0 then
            put (over done m) done.length 0x20 >>= fun a => copyAt a (done.length + 1) w >>= fun a =>
              wordsTo c a (done.length + 1 + w.length) is
          else copyAt (over done m) done.length w >>= fun a => wordsTo c a (done.length + w.length) is)
          = wordsTo c (over (done ++ (if i > 0 then [0x20] else []) ++ w) m)
            (done ++ (if i > 0 then [0x20] else []) ++ w).length is := by
        by_cases hi : i > 0
        · simp only [if_pos hi] at hlt ⊢
          rw [put_at h, Res.bind_ok]
          have hc := copy_at (done := done ++ [0x20]) (old := m) (src := w) (by simp; omega)
          have hl : (done ++ [(0x20 : UInt8)]).length = done.length + 1 := by simp
          rw [hl] at hc
          rw [hc, Res.bind_ok, List.length_append, hl]
        · simp only [if_neg hi] at hlt ⊢
          rw [copy_at (by omega), Res.bind_ok, List.append_nil, List.length_append]
      rw [hstep]
      have hbig : ∀ big t, (if done.length + w.length + (if i > 0 then 1 else 0) ≥ big then .err .invalidParam
          else Hd.writeLoop c big is (done ++ (if i > 0 then [0x20] else []) ++ w)) = .ok t →
          Hd.writeLoop c big is (done ++ (if i > 0 then [0x20] else []) ++ w) = .ok t := by
        intro big t ht
        by_cases hb : done.length + w.length + (if i > 0 then 1 else 0) ≥ big
        · rw [if_pos hb] at ht; cases ht
        · rw [if_neg hb] at ht; exact ht
      cases hr : Hd.writeLoop c m.length is (done ++ (if i > 0 then [0x20] else []) ++ w) with
      | ok t => rw [hr] at ih; exact ih
      | err x =>
        rw [hr] at ih
        obtain ⟨v, h1, h2, h3⟩ := ih
        exact ⟨v, h1, h2, fun big t ht => h3 big t (hbig big t ht)⟩
      | ub => rw [hr] at ih; exact ih

/-- **C197** (mnemonics): a buffer with room for the words and their end gets them and keeps the bytes behind; in a smaller
one the call reports INVALID_PARAM and never writes outside, but the first words that fit stay in it, without an end.
Wrong word counts and a failing random generator leave the buffer alone.
Missing for the full property: a refused call leaves the buffer as it was; it does not, see `C197_mnemonic_refuted`. -/
theorem C197_mnemonic_partial (C : Hd.Crypto) (hC : Hd.Spec.Sha C.sha256) (e : Bytes) (n : Nat)
    (h : e.length = 16 ∧ n = 12 ∨ e.length = 32 ∧ n = 24) :
    ∃ ws, Hd.Spec.IsMnemonic C.sha256 e ws ∧ ∀ m : Bytes,
      ((Text.join 0x20 ws).length < m.length → ∃ new, mnemonicTo C (some e) n m = .ok (none, new) ∧
        Written m (Text.join 0x20 ws) new) ∧
      (m.length ≤ (Text.join 0x20 ws).length → ∃ w, mnemonicTo C (some e) n m = .ok (some .invalidParam, w ++ m.drop w.length) ∧
        w.length ≤ m.length ∧ w <+: Text.join 0x20 ws) := by
  refine ⟨_, Hd.Props.generated_words C hC e n h, fun m => ?_⟩
  have hg := fun size => Hd.Props.generate_eq C e n size (by omega)
  simp only [] at hg
  generalize hs : Text.join 0x20 ((List.range n).map fun i =>
      Hd.words.getD (Hd.indexAt (e ++ [(C.sha256 e).getD 0 0] ++ List.replicate (33 - e.length) 0) i) []) = s at hg ⊢
  have hpos : ∀ size, size ≠ 0 → Hd.generate C (some e) n size =
      Hd.writeLoop (e ++ [(C.sha256 e).getD 0 0] ++ List.replicate (33 - e.length) 0) size (List.range (n : Int).toNat) [] := by
    intro size h0
    unfold Hd.generate
    rw [if_neg h0, if_neg (by omega)]
  by_cases h0 : m.length = 0
  · refine ⟨fun hm => absurd hm (by omega), fun _ => ⟨[], ?_, by simp, List.nil_prefix⟩⟩
    unfold mnemonicTo
    rw [if_pos h0]
    rfl
  · have hl := words_loop (e ++ [(C.sha256 e).getD 0 0] ++ List.replicate (33 - e.length) 0) m (List.range (n : Int).toNat) []
      (by simp only [List.length_nil]; omega)
    have hm : mnemonicTo C (some e) n m = wordsTo (e ++ [(C.sha256 e).getD 0 0] ++ List.replicate (33 - e.length) 0) m 0
        (List.range (n : Int).toNat) := by
      unfold mnemonicTo
      rw [if_neg h0, if_neg (by omega)]
    rw [over_nil, List.length_nil, ← hpos _ h0, hg] at hl
    rw [hm]
    by_cases hr : s.length < m.length
    · rw [if_pos hr] at hl
      exact ⟨fun _ => hl, fun h => absurd h (by omega)⟩
    · rw [if_neg hr] at hl
      obtain ⟨w, h1, h2, h3⟩ := hl
      refine ⟨fun h => absurd h hr, fun _ => ⟨w, h1, by omega, ?_⟩⟩
      refine h3 (s.length + 1) s ?_
      rw [← hpos _ (by omega), hg, if_pos (by omega)]

/-- **C197** (mnemonics, refused before any word): a wrong word count and a failing random generator leave the buffer alone. -/
theorem C197_mnemonic_refused (C : Hd.Crypto) (entropy : Option Bytes) (n : Int) (m : Bytes)
    (h : entropy = none ∨ (n ≠ 12 ∧ n ≠ 24)) : ∃ x, mnemonicTo C entropy n m = .ok (some x, m) := by
  unfold mnemonicTo
  split
  · exact ⟨_, rfl⟩
  · split
    · exact ⟨_, rfl⟩
    · rename_i hn
      rcases h with rfl | h
      · exact ⟨_, rfl⟩
      · exact absurd h hn

/-- **C197** is false for mnemonics: with a buffer of 20 bytes the call reports INVALID_PARAM, but the first two words of the
secret phrase stand in the buffer, without an end. -/
theorem C197_mnemonic_refuted : ∃ C : Hd.Crypto, Hd.Spec.Sha C.sha256 ∧ ∃ e m : Bytes, e.length = 16 ∧ m = List.replicate 20 0x2e ∧
    mnemonicTo C (some e) 12 m = .ok (some .invalidParam, c!"abandon abandon.....") :=
  ⟨Hd.Props.toyCrypto, Hd.Props.toy_sha, List.replicate 16 0, _, by decide, rfl, by decide +kernel⟩

/-! ## Concrete cases -/

/-- A buffer with one byte too few stays as it was, one with exactly the room is filled, the byte behind is kept. -/
example : uriTo (.npub (List.replicate 32 7)) (List.replicate 69 1) = .ok (some .invalidParam, List.replicate 69 1) ∧
    (∃ new, uriTo (.npub (List.replicate 32 7)) (List.replicate 71 1) = .ok (none, new) ∧ new.drop 69 = [0, 1]) := by
  refine ⟨by decide +kernel, ?_⟩
  refine ⟨c!"nostr:npub1" ++ c!"qurswpc8qurswpc8qurswpc8qurswpc8qurswpc8qurswpc8qursnvjvl7" ++ [0, 1], ?_, by decide⟩
  decide +kernel

example : urlTo c!"bob" c!"x.org" (List.replicate 46 1) = .ok (none, c!"https://x.org/.well-known/nostr.json?name=bob" ++ [0]) ∧
    urlTo c!"bob" c!"x.org" (List.replicate 45 1) = .ok (some .invalidParam, List.replicate 45 1) := by decide +kernel

example : Nip21.Spec.InLimits (.nrelay c!"wss://r.x") ∧ Sized (.npub (List.replicate 32 7)) := by
  refine ⟨by decide, ?_⟩
  unfold Sized
  decide

end Nostr.Outbuf.Encode.Props
