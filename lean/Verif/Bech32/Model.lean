import Verif.Basic

/-!
# Model of src/bech32.c

`uint32_t` is `BitVec 32`, `uint8_t`/`char` are `UInt8`.  `malloc` inside the checksum functions is
assumed to succeed (when it fails the C functions return 0, which their callers turn into
`NOSTR_ERR_ENCODING`); `size_t` is assumed not to overflow on string lengths.
-/

namespace Nostr.Bech32
open Nostr

/-- bech32.c:10 `BECH32_CHARSET`. -/
def charset : Bytes := c!"qpzry9x8gf2tvdw0s3jn54khce6mua7l"

/-- bech32.c:12 `BECH32_GENERATOR`. -/
def generator : List (BitVec 32) :=
  [0x3b6a57b2#32, 0x26508e6d#32, 0x1ea119fa#32, 0x3d4233dd#32, 0x2a1462b3#32]

/-- bech32.c:19-21, the inner loop: XOR `BECH32_GENERATOR[j]` for every set bit `j` of `top`
(`gs` is the rest of the generator table, `j` the loop counter). -/
def mixTop (top : BitVec 32) : Nat → List (BitVec 32) → BitVec 32 → BitVec 32
  | _, [], chk => chk
  | j, g :: gs, chk =>
      mixTop top (j + 1) gs (chk ^^^ (if (top >>> j) &&& 1#32 ≠ 0#32 then g else 0#32))

/-- bech32.c:17-21, one iteration of the `bech32_polymod` loop. -/
def polymodStep (chk : BitVec 32) (v : UInt8) : BitVec 32 :=
  let top := chk >>> 25
  mixTop top 0 generator (((chk &&& 0x1ffffff#32) <<< 5) ^^^ v.toBitVec.setWidth 32)

/-- bech32.c:14-24 `bech32_polymod`. -/
def polymod (values : Bytes) : BitVec 32 := values.foldl polymodStep 1#32

/-- bech32.c:33 `hrp[i] >> 5` stored in a `uint8_t`; `char` is signed on the modelled target
(x86-64), so bytes ≥ 0x80 shift arithmetically. -/
def hrpHigh (c : UInt8) : UInt8 := if c < 128 then c >>> 5 else (c >>> 5) ||| 0xF8

/-- bech32.c:26-40 `bech32_hrp_expand`; `none` is the return value -1. -/
def hrpExpand (hrp : Bytes) (retSize : Nat) : Option Bytes :=
  if hrp.length * 2 + 1 > retSize then none
  else some (hrp.map hrpHigh ++ [0] ++ hrp.map (· &&& 31))

/-- bech32.c:42-57 `bech32_verify_checksum` (local buffer `hrp_expanded[84]`). -/
def verifyChecksum (hrp data : Bytes) : Bool :=
  match hrpExpand hrp 84 with
  | none => false
  | some h => polymod (h ++ data) == 1#32

/-- bech32.c:73-75: `checksum[i] = (polymod >> (5 * (5 - i))) & 31` for `i = 0..5`. -/
def checksumSyms (pm : BitVec 32) : Bytes :=
  (List.range 6).map fun i => ⟨((pm >>> (5 * (5 - i))) &&& 31#32).setWidth 8⟩

/-- bech32.c:59-78 `bech32_create_checksum`; `none` is the return value 0. -/
def createChecksum (hrp data : Bytes) : Option Bytes :=
  match hrpExpand hrp 84 with
  | none => none
  | some h => some (checksumSyms (polymod (h ++ data ++ List.replicate 6 0) ^^^ 1#32))

/-- bech32.c:91-95, the inner `while (bits >= tobits)` loop of `bech32_convert_bits`.
`out` is the part of the output already written, `fuel` bounds the number of iterations (each
iteration lowers `bits`, so `fuel = bits` is enough); `none` is the early `return 0` when the
output buffer of `outlen` bytes is full.  `acc` fits 20 bits, so `uint32_t` is a `Nat` here. -/
def drain (tobits outlen acc : Nat) : Nat → Nat → Bytes → Option (Nat × Bytes)
  | 0, bits, out => some (bits, out)
  | fuel + 1, bits, out =>
      if bits ≥ tobits then
        let bits := bits - tobits
        if out.length ≥ outlen then none
        else drain tobits outlen acc fuel bits
              (out ++ [UInt8.ofNat ((acc >>> bits) &&& (2 ^ tobits - 1))])
      else some (bits, out)

/-- bech32.c:87-96, the outer `for` loop of `bech32_convert_bits`; state is `(acc, bits, out)`. -/
def convLoop (frombits tobits outlen : Nat) : Bytes → Nat → Nat → Bytes → Option (Nat × Nat × Bytes)
  | [], acc, bits, out => some (acc, bits, out)
  | b :: rest, acc, bits, out =>
      if b.toNat >>> frombits ≠ 0 then none
      else
        let acc := ((acc <<< frombits) ||| b.toNat) &&& (2 ^ (frombits + tobits - 1) - 1)
        let bits := bits + frombits
        match drain tobits outlen acc bits bits out with
        | none => none
        | some (bits, out) => convLoop frombits tobits outlen rest acc bits out

/-- bech32.c:80-108 `bech32_convert_bits`.  The C function returns the number of bytes written and
0 on failure; the model returns the written bytes and `[]` on failure (the callers only look at
the count). -/
def convertBits (inp : Bytes) (outlen frombits tobits : Nat) (pad : Bool) : Bytes :=
  match convLoop frombits tobits outlen inp 0 0 [] with
  | none => []
  | some (acc, bits, out) =>
      if pad then
        if bits ≠ 0 then
          if out.length ≥ outlen then []
          else out ++ [UInt8.ofNat ((acc <<< (tobits - bits)) &&& (2 ^ tobits - 1))]
        else out
      else if bits ≥ frombits ∨ (acc <<< (tobits - bits)) &&& (2 ^ tobits - 1) ≠ 0 then []
      else out

/-- bech32.c:110-115 `bech32_charset_decode`; `none` is -1. -/
def charsetDecode (c : UInt8) : Option UInt8 :=
  (charset.findIdx? (· == c)).map UInt8.ofNat

/-- `BECH32_CHARSET[v]`, bech32.c:143,146 (only used for `v < 32`). -/
def charsetAt (v : UInt8) : UInt8 := charset.getD v.toNat 0

/-- The common text assembly `prefix '1' data checksum` of bech32.c:138-148, 225-234, 296-305,
after `bech32_convert_bits` into `data[52]`. -/
def encode32 (pre : Bytes) (key : Bytes) : Res Bytes :=
  let data := convertBits key 52 8 5 true
  if data = [] then .err .encoding
  else match createChecksum pre data with
    | none => .err .encoding
    | some ck => .ok (pre ++ c!"1" ++ data.map charsetAt ++ ck.map charsetAt)

/-- bech32.c:117-151 `nostr_key_to_bech32` (non-NULL arguments); `key` is the 32-byte key and the
result is the text written to `bech32`. -/
def keyToBech32 (key pre : Bytes) (bech32Size : Nat) : Res Bytes :=
  if pre.length = 0 ∨ bech32Size < pre.length + 1 + 52 + 6 + 1 then .err .invalidParam
  else encode32 pre key

/-- bech32.c:205-237 `nostr_privkey_to_bech32`. -/
def privkeyToBech32 (key : Bytes) (bech32Size : Nat) : Res Bytes :=
  if bech32Size < 64 then .err .invalidParam else encode32 c!"nsec" key

/-- bech32.c:276-308 `nostr_event_id_to_bech32`. -/
def eventIdToBech32 (id : Bytes) (bech32Size : Nat) : Res Bytes :=
  if bech32Size < 64 then .err .invalidParam else encode32 c!"note" id

/-- bech32.c:183-189 / 254-260 / 325-331: decode each character and store it into `data[cap]`.
`idx` is the next index; storing at an index `≥ cap` is undefined behaviour. -/
def readSyms (cap : Nat) : Nat → Bytes → Res Bytes
  | _, [] => .ok []
  | idx, c :: cs =>
      match charsetDecode c with
      | none => .err .encoding
      | some v => if idx ≥ cap then .ub else do
          let rest ← readSyms cap (idx + 1) cs
          return v :: rest

/-- Index of the last occurrence of `'1'` (bech32.c:163-169); `none` is `sep == -1`. -/
def lastOne (s : Bytes) : Option Nat :=
  match s.reverse.findIdx? (· == 0x31) with
  | none => none
  | some i => some (s.length - 1 - i)

/-- bech32.c:153-203 `nostr_key_from_bech32`; result is the decoded 32-byte key. -/
def keyFromBech32 (s : Bytes) : Res Bytes :=
  let len := s.length
  if len < 8 ∨ len > 90 then .err .encoding
  else match lastOne s with
    | none => .err .encoding
    | some sep =>
      if sep = 0 ∨ sep + 7 > len then .err .encoding
      else if sep ≥ 84 then .err .encoding
      else do
        let data ← readSyms 84 0 (s.drop (sep + 1))
        if verifyChecksum (s.take sep) data then
          let decoded := convertBits (data.take (len - sep - 1 - 6)) 32 5 8 false
          if decoded.length ≠ 32 then .err .encoding else .ok decoded
        else .err .encoding

/-- bech32.c:239-274 `nostr_privkey_from_bech32` and 310-345 `nostr_event_id_from_bech32`: the two
functions are the same text except for the four-letter prefix (`"nsec"` / `"note"`).
`junk` is the indeterminate initial content of the local array `data[84]`: for `len < 11` the length
argument `len - 5 - 6` wraps around (`size_t`) and `bech32_convert_bits` reads on through the
uninitialised rest of `data`; reading past its 84 bytes is undefined behaviour. -/
def fixedFromBech32 (junk : Bytes) (pre : Bytes) (s : Bytes) : Res Bytes :=
  if s.take 5 ≠ pre ++ c!"1" then .err .encoding
  else
    let len := s.length
    if len < 8 ∨ len > 90 then .err .encoding
    else do
      let data ← readSyms 84 0 (s.drop 5)
      if verifyChecksum pre data then
        if len < 11 then
          match convLoop 5 8 32 (data ++ junk.drop data.length) 0 0 [] with
          | none => .err .encoding
          | some _ => .ub
        else
          let decoded := convertBits (data.take (len - 5 - 6)) 32 5 8 false
          if decoded.length ≠ 32 then .err .encoding else .ok decoded
      else .err .encoding

/-- bech32.c:239-274. -/
def privkeyFromBech32 (junk s : Bytes) : Res Bytes := fixedFromBech32 junk c!"nsec" s

/-- bech32.c:310-345. -/
def eventIdFromBech32 (junk s : Bytes) : Res Bytes := fixedFromBech32 junk c!"note" s

end Nostr.Bech32
