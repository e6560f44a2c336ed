import Verif.Basic

/-!
# Model of the hex codecs and the constant-time comparison

src/utils.c, src/relay_protocol.c:940-987, src/key.c:379-438.
-/

namespace Nostr.Hex
open Nostr

/-- utils.c:47-52 `hex_char_to_nibble`; `none` is -1. -/
def nibble (c : UInt8) : Option Nat :=
  if 0x30 ≤ c ∧ c ≤ 0x39 then some (c.toNat - 0x30)
  else if 0x61 ≤ c ∧ c ≤ 0x66 then some (c.toNat - 0x61 + 10)
  else if 0x41 ≤ c ∧ c ≤ 0x46 then some (c.toNat - 0x41 + 10)
  else none

/-- utils.c:58-63, the pairwise loop. -/
def pairs : Bytes → Option Bytes
  | hi :: lo :: rest =>
      match nibble hi, nibble lo with
      | some h, some l =>
          match pairs rest with
          | some bs => some (UInt8.ofNat ((h <<< 4) ||| l) :: bs)
          | none => none
      | _, _ => none
  | _ => some []

/-- utils.c:54-65 `nostr_hex_decode` on a C string; `none` is -1, otherwise the bytes written (the
return value is their number; it is an `int`, the model assumes `hex_len/2` fits). -/
def hexDecode (hex : Bytes) (outLen : Nat) : Option Bytes :=
  if hex.length % 2 ≠ 0 ∨ hex.length / 2 > outLen then none else pairs hex

/-- One hex digit as written by `%02x` and by `hex_chars` (relay_protocol.c:981). -/
def digit (n : Nat) : UInt8 := (c!"0123456789abcdef").getD n 0

/-- utils.c:67-73 `nostr_hex_encode` and relay_protocol.c:977-987 `nostr_bytes_to_hex`: the text
written before the final NUL. -/
def hexEncode (bytes : Bytes) : Bytes :=
  bytes.flatMap fun b => [digit ((b.toNat >>> 4) &&& 0x0f), digit (b.toNat &&& 0x0f)]

/-- Reading character `i` of a C string: the terminator is readable, anything after it is not. -/
def charAt (s : Bytes) (i : Nat) : Res UInt8 :=
  if i < s.length then .ok (s.getD i 0) else if i = s.length then .ok 0 else .ub

/-- relay_protocol.c:955-972, loop over `bytes_needed`; `i` counts up, `k` is what remains. -/
def relayLoop (hex : Bytes) : Nat → Nat → Res Bytes
  | 0, _ => .ok []
  | k + 1, i => charAt hex (i * 2) >>= fun c1 =>
      -- C reads both characters before testing the first one
      charAt hex (i * 2 + 1) >>= fun c2 =>
        match nibble c1 with
        | none => .err (.relay .invalidId)
        | some v1 => match nibble c2 with
          | none => .err (.relay .invalidId)
          | some v2 => relayLoop hex k (i + 1) >>= fun rest =>
              .ok (UInt8.ofNat ((v1 <<< 4) ||| v2) :: rest)

/-- relay_protocol.c:940-975 `nostr_hex_to_bytes`; `hexLen` is given by the caller. -/
def relayHexToBytes (hex : Bytes) (hexLen outSize : Nat) : Res Bytes :=
  if hexLen % 2 ≠ 0 then .err (.relay .invalidId)
  else if hexLen / 2 > outSize then .err (.relay .bufferTooSmall)
  else relayLoop hex (hexLen / 2) 0

/-- utils.c:14-24 `nostr_constant_time_memcmp` on two regions of the same length. -/
def ctMemcmp (a b : Bytes) : UInt8 :=
  (a.zip b).foldl (fun diff p => diff ||| (p.1 ^^^ p.2)) 0

/-- C `isspace` in the "C" locale. -/
def isSpace (c : UInt8) : Bool := c == 0x20 || (decide (0x09 ≤ c) && decide (c ≤ 0x0d))

/-- `sscanf(s, "%2hhx", &out) == 1` : leading white space is skipped, then at most two characters of
an optionally signed, optionally `0x`-prefixed hexadecimal number are taken (C11 7.21.6.2, `strtoul`
base 16).  `lax0x` says what the C library does with the two characters `0x` (glibc: value 0,
the standard: matching failure). -/
def scan2 (lax0x : Bool) (s : Bytes) : Option UInt8 :=
  match s.dropWhile isSpace with
  | [] => none
  | c :: rest =>
      match nibble c with
      | some v =>
          match rest with
          | [] => some (UInt8.ofNat v)
          | d :: _ =>
              match nibble d with
              | some w => some (UInt8.ofNat ((v <<< 4) ||| w))
              | none =>
                  if c = 0x30 ∧ (d = 0x78 ∨ d = 0x58) then
                    if lax0x then some 0 else none
                  else some (UInt8.ofNat v)
      | none =>
          if c = 0x2b ∨ c = 0x2d then
            match rest with
            | [] => none
            | d :: _ =>
                match nibble d with
                | some w => some (if c = 0x2b then UInt8.ofNat w else 0 - UInt8.ofNat w)
                | none => none
          else none

/-- The 32-iteration loop of key.c:388-392 (also 419-423): `k` bytes remain. -/
def keyLoop (lax0x : Bool) : Nat → Bytes → Res Bytes
  | 0, _ => .ok []
  | k + 1, s =>
      match scan2 lax0x s with
      | none => .err .invalidKey
      | some b => keyLoop lax0x k (s.drop 2) >>= fun rest => .ok (b :: rest)

/-- key.c:379-395 `nostr_key_from_hex` and 410-426 `nostr_privkey_from_hex` (same text). -/
def keyFromHex (lax0x : Bool) (hex : Bytes) : Res Bytes :=
  if hex.length ≠ 64 then .err .invalidKey else keyLoop lax0x 32 hex

/-- key.c:397-408 `nostr_key_to_hex` and 428-439 `nostr_privkey_to_hex`. -/
def keyToHex (key : Bytes) (hexSize : Nat) : Res Bytes :=
  if hexSize < 65 then .err .invalidParam else .ok (hexEncode key)

end Nostr.Hex
