import Verif.Bech32.Model

/-!
# Model of src/nip21.c (NIP-19 TLV entities, NIP-21 URIs)

`malloc` is assumed to succeed.  `uint32_t` kinds are `BitVec 32`.  Reads of the TLV buffer, copies
into `special[]` and stores into `relays[16]` are bounds-checked by the model (`Res.ub`).
-/

namespace Nostr.Nip21
open Nostr Nostr.Bech32

/-- nostr.h:1225 `NOSTR_URI_MAX_RELAYS`. -/
def maxRelays : Nat := 16
/-- nostr.h:1226 `NOSTR_URI_MAX_RELAY_LEN`. -/
def maxRelayLen : Nat := 256
/-- nostr.h:1227 `NOSTR_URI_MAX_IDENTIFIER_LEN`. -/
def maxIdentifierLen : Nat := 256

/-- nip21.c:33-40: character loop into a buffer of exactly the right size. -/
def readChars : Bytes → Res Bytes
  | [] => .ok []
  | c :: cs =>
      match charsetDecode c with
      | none => .err .encoding
      | some v => do
          let rest ← readChars cs
          return v :: rest

/-- nip21.c:15-58 `decode_bech32_to_bytes`. -/
def decodeBytes (s hrp : Bytes) (outSize : Nat) : Res Bytes :=
  let len := s.length
  let hrpLen := hrp.length
  let maxDataChars := (outSize * 8 + 4) / 5 + 6
  if len < hrpLen + 8 ∨ len > hrpLen + 1 + maxDataChars then .err .encoding
  else if s.take hrpLen ≠ hrp ∨ s[hrpLen]? ≠ some 0x31 then .err .encoding
  else do
    let data ← readChars (s.drop (hrpLen + 1))
    if verifyChecksum hrp data then
      if data.length < 7 then .err .encoding
      else
        let out := convertBits (data.take (data.length - 6)) outSize 5 8 false
        if out = [] then .err .encoding else .ok out
    else .err .encoding

/-- nip21.c:60-98 `encode_bytes_to_bech32`.  The return value of `bech32_create_checksum` is ignored
there; for the (short) prefixes used it never fails, so the model treats failure as undefined
behaviour (uninitialised `checksum[6]`). -/
def encodeBytes (data hrp : Bytes) (outSize : Nat) : Res Bytes :=
  let conv := convertBits data ((data.length * 8 + 4) / 5) 8 5 true
  if conv = [] then .err .encoding
  else if outSize < hrp.length + 1 + conv.length + 6 + 1 then .err .invalidParam
  else match createChecksum hrp conv with
    | none => .ub
    | some ck => .ok (hrp ++ c!"1" ++ conv.map charsetAt ++ ck.map charsetAt)

/-- nip21.c:100-109 `is_valid_relay_url` on a length-delimited byte range. -/
def isValidRelayUrl (url : Bytes) : Bool :=
  if url.length < 6 then false
  else if url.length ≥ maxRelayLen then false
  else if !(c!"wss://").isPrefixOf url && !(c!"ws://").isPrefixOf url then false
  else url.all fun c => decide (0x21 ≤ c ∧ c ≤ 0x7e)

/-- Output parameters of `parse_tlv`: `special` (its length is `*special_len`), the relay array,
`author`/`has_author`, `kind`/`has_kind`. -/
structure Tlv where
  special : Bytes := []
  relays : List Bytes := []
  author : Option Bytes := none
  kind : Option (BitVec 32) := none
  deriving DecidableEq, Repr

/-- Big-endian 32-bit value, nip21.c:155-158. -/
def be32 (a b c d : UInt8) : BitVec 32 :=
  (a.toBitVec.setWidth 32 <<< 24) ||| (b.toBitVec.setWidth 32 <<< 16)
    ||| (c.toBitVec.setWidth 32 <<< 8) ||| d.toBitVec.setWidth 32

/-- Which outputs the caller passed non-NULL pointers for: `special_size`, whether `relays` is
given (with `max_relays`), and whether author/kind pointers are given. -/
structure TlvArgs where
  specialSize : Nat
  wantRelays : Bool
  maxRelays : Nat
  wantAuthor : Bool
  wantKind : Bool

/-- Bounds-checked read of `len` bytes at `pos` of the input buffer. -/
def slice (data : Bytes) (pos len : Nat) : Res Bytes :=
  if pos + len > data.length then .ub else .ok ((data.drop pos).take len)

/-- Bounds-checked read of one byte. -/
def rd (data : Bytes) (pos : Nat) : Res UInt8 :=
  match data[pos]? with
  | none => .ub
  | some b => .ok b

/-- nip21.c:127-162, the `switch (type)` of `parse_tlv` for a record whose value is the `len` bytes at
`pos`. -/
def record (a : TlvArgs) (data : Bytes) (type : UInt8) (pos len : Nat) (st : Tlv) : Res Tlv :=
  if type = 0 then
    if len > a.specialSize then .err .encoding
    else slice data pos len >>= fun v => .ok { st with special := v }
  else if type = 1 then
    if a.wantRelays ∧ st.relays.length < a.maxRelays then
      slice data pos len >>= fun v =>
        if isValidRelayUrl v = false then .ok st
        else if st.relays.length ≥ 16 then .ub   -- the array has 16 slots
        else .ok { st with relays := st.relays ++ [v] }
    else .ok st
  else if type = 2 then
    if a.wantAuthor ∧ len = 32 then
      slice data pos 32 >>= fun v => .ok { st with author := some v }
    else .ok st
  else if type = 3 then
    if a.wantKind ∧ len = 4 then
      rd data pos >>= fun b0 => rd data (pos + 1) >>= fun b1 =>
      rd data (pos + 2) >>= fun b2 => rd data (pos + 3) >>= fun b3 =>
        .ok { st with kind := some (be32 b0 b1 b2 b3) }
    else .ok st
  else .ok st

/-- nip21.c:121-164, the record loop of `parse_tlv`.  Running out of fuel stands for
non-termination (`Res.ub`); the caller provides `data.length + 1`. -/
def parseLoop (a : TlvArgs) (data : Bytes) : Nat → Nat → Tlv → Res Tlv
  | 0, _, _ => .ub
  | fuel + 1, pos, st =>
      if pos + 2 ≤ data.length then
        rd data pos >>= fun type => rd data (pos + 1) >>= fun lenB =>
          if pos + 2 + lenB.toNat > data.length then .err .encoding
          else record a data type (pos + 2) lenB.toNat st >>= fun st =>
            parseLoop a data fuel (pos + 2 + lenB.toNat) st
      else .ok st

/-- nip21.c:111-177 `parse_tlv`. -/
def parseTlv (a : TlvArgs) (data : Bytes) : Res Tlv := parseLoop a data (data.length + 1) 0 {}

/-- nip21.c:198-205: append the relay records that fit into the rest of the 4096-byte area. -/
def buildRelays (outSize : Nat) : List Bytes → Bytes → Bytes
  | [], out => out
  | r :: rs, out =>
      if r.length > 255 ∨ out.length + 2 + r.length > outSize then buildRelays outSize rs out
      else buildRelays outSize rs (out ++ [1, UInt8.ofNat r.length] ++ r)

/-- nip21.c:179-227 `build_tlv`; `[]` is the return value 0. `relays` is the list of non-NULL
entries of the caller's array. -/
def buildTlv (outSize : Nat) (special : Bytes) (relays : List Bytes) (author : Option Bytes)
    (kind : Option (BitVec 32)) : Bytes :=
  if special.length > 255 then []
  else if special.length > 0 ∧ 2 + special.length > outSize then []
  else
    let out := if special.length > 0 then [0, UInt8.ofNat special.length] ++ special else []
    let out := buildRelays outSize (relays.take maxRelays) out
    if author.isSome ∧ out.length + 2 + 32 > outSize then []
    else
      let out := match author with
        | none => out
        | some a => out ++ [2, 32] ++ a
      if kind.isSome ∧ out.length + 2 + 4 > outSize then []
      else match kind with
        | none => out
        | some k => out ++ [3, 4, ⟨(k >>> 24).setWidth 8⟩, ⟨(k >>> 16).setWidth 8⟩,
            ⟨(k >>> 8).setWidth 8⟩, ⟨k.setWidth 8⟩]

/-- nostr.h `nostr_nprofile`. -/
structure NProfile where
  pubkey : Bytes
  relays : List Bytes
  deriving DecidableEq, Repr

/-- nostr.h `nostr_nevent` (`none` = `has_… == 0`). -/
structure NEvent where
  id : Bytes
  relays : List Bytes
  author : Option Bytes
  kind : Option (BitVec 32)
  deriving DecidableEq, Repr

/-- nostr.h `nostr_naddr`; `identifier` is the C string in `identifier[256]`. -/
structure NAddr where
  identifier : Bytes
  pubkey : Bytes
  kind : BitVec 32
  relays : List Bytes
  deriving DecidableEq, Repr

/-- The C string stored in a buffer: bytes before the first NUL. -/
def cstrOf (b : Bytes) : Bytes := b.takeWhile (· ≠ 0)

/-- nip21.c:229-240 `nostr_nprofile_encode`. -/
def nprofileEncode (p : NProfile) (size : Nat) : Res Bytes :=
  let tlv := buildTlv 4096 p.pubkey p.relays none none
  if tlv = [] then .err .encoding else encodeBytes tlv c!"nprofile" size

/-- nip21.c:242-264 `nostr_nprofile_decode`. -/
def nprofileDecode (s : Bytes) : Res NProfile := do
  let data ← decodeBytes s c!"nprofile" 4096
  let t ← parseTlv ⟨32, true, maxRelays, false, false⟩ data
  if t.special.length ≠ 32 then .err .encoding else .ok ⟨t.special, t.relays⟩

/-- nip21.c:279-291 `nostr_nevent_encode`. -/
def neventEncode (e : NEvent) (size : Nat) : Res Bytes :=
  let tlv := buildTlv 4096 e.id e.relays e.author e.kind
  if tlv = [] then .err .encoding else encodeBytes tlv c!"nevent" size

/-- nip21.c:293-316 `nostr_nevent_decode`. -/
def neventDecode (s : Bytes) : Res NEvent := do
  let data ← decodeBytes s c!"nevent" 4096
  let t ← parseTlv ⟨32, true, maxRelays, true, true⟩ data
  if t.special.length ≠ 32 then .err .encoding else .ok ⟨t.special, t.relays, t.author, t.kind⟩

/-- nip21.c:323-335 `nostr_naddr_encode`. -/
def naddrEncode (a : NAddr) (size : Nat) : Res Bytes :=
  let tlv := buildTlv 4096 a.identifier a.relays (some a.pubkey) (some a.kind)
  if tlv = [] then .err .encoding else encodeBytes tlv c!"naddr" size

/-- nip21.c:337-366 `nostr_naddr_decode`. -/
def naddrDecode (s : Bytes) : Res NAddr := do
  let data ← decodeBytes s c!"naddr" 4096
  let t ← parseTlv ⟨maxIdentifierLen, true, maxRelays, true, true⟩ data
  match t.author, t.kind with
  | some pk, some k =>
      if t.special.length ≥ maxIdentifierLen then .err .encoding
      else .ok ⟨cstrOf t.special, pk, k, t.relays⟩
  | _, _ => .err .encoding

/-- nip21.c:373-385 `nostr_nrelay_encode`. -/
def nrelayEncode (url : Bytes) (size : Nat) : Res Bytes :=
  if url.length = 0 ∨ url.length ≥ maxRelayLen then .err .invalidParam
  else encodeBytes ([0, UInt8.ofNat url.length] ++ url) c!"nrelay" size

/-- nip21.c:387-410 `nostr_nrelay_decode`. -/
def nrelayDecode (s : Bytes) : Res Bytes := do
  let data ← decodeBytes s c!"nrelay" 512
  let t ← parseTlv ⟨maxRelayLen, false, 0, false, false⟩ data
  if t.special.length = 0 ∨ t.special.length ≥ maxRelayLen then .err .encoding
  else .ok (cstrOf t.special)

/-- nostr.h `nostr_uri`. -/
inductive Uri
  | npub (key : Bytes)
  | nsec (key : Bytes)
  | note (id : Bytes)
  | nprofile (p : NProfile)
  | nevent (e : NEvent)
  | naddr (a : NAddr)
  | nrelay (url : Bytes)
  deriving DecidableEq, Repr

/-- nip21.c:412-456 `nostr_uri_parse` (`junk`: stack content for the nsec/note decoders). -/
def uriParse (junk uri : Bytes) : Res Uri :=
  if uri.take 6 ≠ c!"nostr:" then .err .encoding
  else
    let entity := uri.drop 6
    if entity.take 5 = c!"npub1" then Uri.npub <$> keyFromBech32 entity
    else if entity.take 5 = c!"nsec1" then Uri.nsec <$> privkeyFromBech32 junk entity
    else if entity.take 5 = c!"note1" then Uri.note <$> eventIdFromBech32 junk entity
    else if entity.take 9 = c!"nprofile1" then Uri.nprofile <$> nprofileDecode entity
    else if entity.take 7 = c!"nevent1" then Uri.nevent <$> neventDecode entity
    else if entity.take 6 = c!"naddr1" then Uri.naddr <$> naddrDecode entity
    else if entity.take 7 = c!"nrelay1" then Uri.nrelay <$> nrelayDecode entity
    else .err .encoding

/-- nip21.c:458-496 `nostr_uri_encode`. -/
def uriEncode (u : Uri) (outputSize : Nat) : Res Bytes :=
  if outputSize < 7 then .err .invalidParam
  else do
    let size := outputSize - 6
    let body ← match u with
      | .npub k => keyToBech32 k c!"npub" size
      | .nsec k => privkeyToBech32 k size
      | .note i => eventIdToBech32 i size
      | .nprofile p => nprofileEncode p size
      | .nevent e => neventEncode e size
      | .naddr a => naddrEncode a size
      | .nrelay r => nrelayEncode r size
    return c!"nostr:" ++ body

end Nostr.Nip21
