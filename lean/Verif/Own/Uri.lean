import Verif.Heap
import Verif.Nip21.Model

/-! # Memory of decoded pointers and URIs (src/nip21.c) -/

namespace Nostr.Own.Uri
open Nostr Nostr.Heap Nostr.Nip21 Nostr.Bech32

/-- include/nostr.h:1239-1261: the relays of a pointer, an array of `NOSTR_URI_MAX_RELAYS` addresses inside the structure,
with their number. -/
structure HRel where
  slots : List (Option Nat)
  count : Nat
  deriving DecidableEq, Repr

/-- nip21.c:245, 296, 340, 415: the array after `memset`. -/
def empty : HRel := ⟨List.replicate 16 none, 0⟩

/-- nip21.c:266-269, 168-171: release the first `n` strings. -/
def freeSlots : Nat → List (Option Nat) → M (List (Option Nat))
  | 0, l => M.pure l
  | _ + 1, [] => fun _ => none
  | n + 1, p :: l => M.bind (free p) fun _ => M.bind (freeSlots n l) fun k => M.pure (none :: k)

/-- nip21.c:266-272 `free_relay_array`, which is all that nip21.c:274-277 `nostr_nprofile_free`, 318-321 `nostr_nevent_free` and
368-371 `nostr_naddr_free` do; the same lines are at nip21.c:167-174. -/
def release (r : HRel) : M HRel := M.bind (freeSlots r.count r.slots) fun l => M.pure ⟨l, 0⟩

/-- nip21.c:136-147: a relay record; `none` is `goto cleanup_error`. The slot is written before the test for NULL. -/
def relay (A : Alloc) (a : TlvArgs) (v : Bytes) (st : Tlv) (r : HRel) : M (Option (Tlv × HRel)) :=
  if a.wantRelays ∧ r.count < a.maxRelays then
    if isValidRelayUrl v = false then M.pure (some (st, r))
    else M.bind (alloc A (.str v)) fun p =>
      if r.count < r.slots.length then
        match p with
        | none => M.pure none
        | some p => M.pure (some ({ st with relays := st.relays ++ [v] }, ⟨r.slots.set r.count (some p), r.count + 1⟩))
      else fun _ => none
  else M.pure (some (st, r))

/-- nip21.c:111-177 `parse_tlv`: the status, what was read and the relays. -/
def parseLoop (A : Alloc) (a : TlvArgs) (data : Bytes) : Nat → Nat → Tlv → HRel → M (Option Err × Tlv × HRel)
  | 0, _, _, _ => fun _ => none
  | fuel + 1, pos, st, r =>
      if pos + 2 ≤ data.length then
        match rd data pos, rd data (pos + 1) with
        | .ok type, .ok lenB =>
            if pos + 2 + lenB.toNat > data.length then M.bind (release r) fun r => M.pure (some .encoding, st, r)
            else if type = 1 then
              M.bind (relay A a ((data.drop (pos + 2)).take lenB.toNat) st r) fun x =>
              match x with
              | none => M.bind (release r) fun r => M.pure (some .encoding, st, r)
              | some x => parseLoop A a data fuel (pos + 2 + lenB.toNat) x.1 x.2
            else match record a data type (pos + 2) lenB.toNat st with
              | .ub => fun _ => none
              | .err _ => M.bind (release r) fun r => M.pure (some .encoding, st, r)
              | .ok st => parseLoop A a data fuel (pos + 2 + lenB.toNat) st r
        | _, _ => fun _ => none
      else M.pure (none, st, r)

/-- nip21.c:15-58 `decode_bech32_to_bytes`: a copy of the symbols is made once the length and the prefix are right, and
released on every path; bech32.c:46-56 `bech32_verify_checksum` makes and releases a copy of its own, and counts a lack of
memory as a wrong checksum. -/
def decodeBytes (A : Alloc) (s hrp : Bytes) (outSize : Nat) : M (Res Bytes) :=
  if s.length < hrp.length + 8 ∨ s.length > hrp.length + 1 + ((outSize * 8 + 4) / 5 + 6) then M.pure (.err .encoding)
  else if s.take hrp.length ≠ hrp ∨ s[hrp.length]? ≠ some 0x31 then M.pure (.err .encoding)
  else M.bind (alloc A (.str s)) fun d =>
    match d with
    | none => M.pure (.err .memory)
    | some d => match readChars (s.drop (hrp.length + 1)) with
      | .ok _ =>
        M.bind (alloc A (.str s)) fun t =>
        match t with
        | none => M.bind (free (some d)) fun _ => M.pure (.err .encoding)
        | some t => M.bind (free (some t)) fun _ => M.bind (free (some d)) fun _ => M.pure (Nip21.decodeBytes s hrp outSize)
      | _ => M.bind (free (some d)) fun _ => M.pure (Nip21.decodeBytes s hrp outSize)

/-- nip21.c:242-264 `nostr_nprofile_decode`, 293-316 `nostr_nevent_decode`, 337-366 `nostr_naddr_decode`: they differ in the
prefix, the wanted records and the final test `fin`. The status, the values and the relays. -/
def decode {α : Type} (A : Alloc) (hrp : Bytes) (a : TlvArgs) (fin : Tlv → Res α) (s : Bytes) : M (Res α × HRel) :=
  M.bind (decodeBytes A s hrp 4096) fun d =>
  match d with
  | .ub => fun _ => none
  | .err x => M.pure (.err x, empty)
  | .ok data =>
    M.bind (parseLoop A a data (data.length + 1) 0 {} empty) fun t =>
    match t.1 with
    | some x => M.bind (release t.2.2) fun r => M.pure (.err x, r)
    | none => match fin t.2.1 with
      | .ok v => M.pure (.ok v, t.2.2)
      | .err x => M.bind (release t.2.2) fun r => M.pure (.err x, r)
      | .ub => fun _ => none

/-- nip21.c:258-263: the last test of `nostr_nprofile_decode`. -/
def finProfile (t : Tlv) : Res NProfile := if t.special.length ≠ 32 then .err .encoding else .ok ⟨t.special, t.relays⟩

/-- nip21.c:310-315: the last test of `nostr_nevent_decode`. -/
def finEvent (t : Tlv) : Res NEvent :=
  if t.special.length ≠ 32 then .err .encoding else .ok ⟨t.special, t.relays, t.author, t.kind⟩

/-- nip21.c:357-365: the last test of `nostr_naddr_decode`. -/
def finAddr (t : Tlv) : Res NAddr :=
  match t.author, t.kind with
  | some pk, some k =>
      if t.special.length ≥ maxIdentifierLen then .err .encoding else .ok ⟨cstrOf t.special, pk, k, t.relays⟩
  | _, _ => .err .encoding

/-- nip21.c:242-264 `nostr_nprofile_decode`. -/
def nprofileDecode (A : Alloc) (s : Bytes) : M (Res NProfile × HRel) :=
  decode A c!"nprofile" ⟨32, true, maxRelays, false, false⟩ finProfile s

/-- nip21.c:293-316 `nostr_nevent_decode`. -/
def neventDecode (A : Alloc) (s : Bytes) : M (Res NEvent × HRel) :=
  decode A c!"nevent" ⟨32, true, maxRelays, true, true⟩ finEvent s

/-- nip21.c:337-366 `nostr_naddr_decode`. -/
def naddrDecode (A : Alloc) (s : Bytes) : M (Res NAddr × HRel) :=
  decode A c!"naddr" ⟨maxIdentifierLen, true, maxRelays, true, true⟩ finAddr s

/-- nip21.c:387-410 `nostr_nrelay_decode`: nothing is kept in allocated memory. -/
def nrelayDecode (A : Alloc) (s : Bytes) : M (Res Bytes) :=
  M.bind (decodeBytes A s c!"nrelay" 512) fun d =>
  M.pure (d >>= fun data => parseTlv ⟨maxRelayLen, false, 0, false, false⟩ data >>= fun t =>
    if t.special.length = 0 ∨ t.special.length ≥ maxRelayLen then .err .encoding else .ok (cstrOf t.special))

/-- nip21.c:60-98 `encode_bytes_to_bech32`, with bech32.c:59-78 `bech32_create_checksum`, which makes a copy of the symbols
and returns 0 when there is no memory for it. That result is not looked at: the checksum is then read though it was never
written. -/
def encodeBytes (A : Alloc) (data hrp : Bytes) (outSize : Nat) : M (Res Bytes) :=
  M.bind (alloc A (.str [])) fun c =>
  match c with
  | none => M.pure (.err .memory)
  | some c =>
    let conv := convertBits data ((data.length * 8 + 4) / 5) 8 5 true
    if conv = [] then M.bind (free (some c)) fun _ => M.pure (.err .encoding)
    else if outSize < hrp.length + 1 + conv.length + 6 + 1 then M.bind (free (some c)) fun _ => M.pure (.err .invalidParam)
    else match createChecksum hrp conv with
      | none => fun _ => none
      | some ck =>
        M.bind (alloc A (.str [])) fun t =>
        match t with
        | none => fun _ => none
        | some t =>
          M.bind (free (some t)) fun _ => M.bind (free (some c)) fun _ =>
          M.pure (.ok (hrp ++ c!"1" ++ conv.map charsetAt ++ ck.map charsetAt))

/-- A parsed URI: whether its type is one of the three with relays (`uri->type`), and the relays. -/
structure HUri where
  pointer : Bool
  rel : HRel
  deriving DecidableEq, Repr

/-- bech32.c:48-56 in `bech32_verify_checksum` and 65-77 in `bech32_create_checksum`: a copy is made and released; without memory for it the
caller reports NOSTR_ERR_ENCODING. -/
def withCopy (A : Alloc) (v : Res Bytes) : M (Res Bytes) :=
  M.bind (alloc A (.str [])) fun c =>
  match c with
  | none => M.pure (.err .encoding)
  | some c => M.bind (free (some c)) fun _ => M.pure v

/-- bech32.c:153-203 `nostr_key_from_bech32`: the copy is made when the characters have been read and the prefix fits. -/
def keyFrom (A : Alloc) (s : Bytes) : M (Res Bytes) :=
  if s.length < 8 ∨ s.length > 90 then M.pure (.err .encoding)
  else match lastOne s with
    | none => M.pure (.err .encoding)
    | some sep =>
      if sep = 0 ∨ sep + 7 > s.length then M.pure (.err .encoding)
      else if sep ≥ 84 then M.pure (.err .encoding)
      else match readSyms 84 0 (s.drop (sep + 1)), hrpExpand (s.take sep) 84 with
        | .ok _, some _ => withCopy A (keyFromBech32 s)
        | _, _ => M.pure (keyFromBech32 s)

/-- bech32.c:239-274 `nostr_privkey_from_bech32` and 310-345 `nostr_event_id_from_bech32`. -/
def fixedFrom (A : Alloc) (junk pre s : Bytes) : M (Res Bytes) :=
  if s.take 5 ≠ pre ++ c!"1" then M.pure (.err .encoding)
  else if s.length < 8 ∨ s.length > 90 then M.pure (.err .encoding)
  else match readSyms 84 0 (s.drop 5) with
    | .ok _ => withCopy A (fixedFromBech32 junk pre s)
    | _ => M.pure (fixedFromBech32 junk pre s)

/-- bech32.c:117-151 `nostr_key_to_bech32`. -/
def keyTo (A : Alloc) (key pre : Bytes) (size : Nat) : M (Res Bytes) :=
  if pre.length = 0 ∨ size < pre.length + 1 + 52 + 6 + 1 then M.pure (.err .invalidParam)
  else if convertBits key 52 8 5 true = [] then M.pure (.err .encoding)
  else match hrpExpand pre 84 with
    | none => M.pure (.err .encoding)
    | some _ => withCopy A (encode32 pre key)

/-- bech32.c:205-237 `nostr_privkey_to_bech32` and 276-308 `nostr_event_id_to_bech32`. -/
def fixedTo (A : Alloc) (pre key : Bytes) (size : Nat) : M (Res Bytes) :=
  if size < 64 then M.pure (.err .invalidParam)
  else if convertBits key 52 8 5 true = [] then M.pure (.err .encoding)
  else withCopy A (encode32 pre key)

/-- nip21.c:412-456 `nostr_uri_parse`: the status with the values, and the memory. -/
def uriParse (A : Alloc) (junk uri : Bytes) : M (Res Nip21.Uri × HUri) :=
  if uri.take 6 ≠ c!"nostr:" then M.pure (.err .encoding, ⟨false, empty⟩)
  else
    let entity := uri.drop 6
    if entity.take 5 = c!"npub1" then
      M.bind (keyFrom A entity) fun r => M.pure (Uri.npub <$> r, ⟨false, empty⟩)
    else if entity.take 5 = c!"nsec1" then
      M.bind (fixedFrom A junk c!"nsec" entity) fun r => M.pure (Uri.nsec <$> r, ⟨false, empty⟩)
    else if entity.take 5 = c!"note1" then
      M.bind (fixedFrom A junk c!"note" entity) fun r => M.pure (Uri.note <$> r, ⟨false, empty⟩)
    else if entity.take 9 = c!"nprofile1" then
      M.bind (nprofileDecode A entity) fun r => M.pure (Uri.nprofile <$> r.1, ⟨true, r.2⟩)
    else if entity.take 7 = c!"nevent1" then
      M.bind (neventDecode A entity) fun r => M.pure (Uri.nevent <$> r.1, ⟨true, r.2⟩)
    else if entity.take 6 = c!"naddr1" then
      M.bind (naddrDecode A entity) fun r => M.pure (Uri.naddr <$> r.1, ⟨true, r.2⟩)
    else if entity.take 7 = c!"nrelay1" then
      M.bind (nrelayDecode A entity) fun r => M.pure (Uri.nrelay <$> r, ⟨false, empty⟩)
    else M.pure (.err .encoding, ⟨false, empty⟩)

/-- nip21.c:498-515 `nostr_uri_free`; `secure_wipe` clears the array and its number. -/
def uriFree (u : HUri) : M HUri :=
  if u.pointer then M.bind (release u.rel) fun _ => M.pure ⟨true, empty⟩ else M.pure ⟨false, empty⟩

end Nostr.Own.Uri
