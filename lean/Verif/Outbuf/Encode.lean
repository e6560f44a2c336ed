import Verif.Outbuf.Model
import Verif.Nip21.Model
import Verif.Nip49.Model
import Verif.Hd.Model

/-!
# Texts written by the encoders into a buffer of the caller (bech32.c, nip21.c, nip49.c, nip05.c, hd_key.c)

The buffer is memory of the given size; every write is checked against it. Arguments are non-NULL, allocation succeeds.
The indices into `BECH32_CHARSET` are 5-bit values (`bech32_convert_bits` and the checksum mask them).
-/

namespace Nostr.Outbuf.Encode
open Nostr Nostr.Outbuf Nostr.Bech32

/-- `memcpy(dest + i, src, strlen(src))`. -/
def copyAt (dest : Bytes) (i : Nat) (src : Bytes) : Res Bytes :=
  if i + src.length ≤ dest.length then .ok (dest.take i ++ src ++ dest.drop (i + src.length)) else .ub

/-- bech32.c:142-144 and 145-147: `*pos++ = BECH32_CHARSET[data[i]]`; the memory and `pos`. -/
def putSyms (m : Bytes) (pos : Nat) : Bytes → Res (Bytes × Nat)
  | [] => .ok (m, pos)
  | v :: vs => put m pos (charsetAt v) >>= fun m => putSyms m (pos + 1) vs

/-- bech32.c:141-148 (also 227-234, 298-305, nip21.c:86-93, nip49.c:304-309): data, checksum and terminator from `pos` on. -/
def putTail (m : Bytes) (pos : Nat) (data ck : Bytes) : Res Bytes :=
  putSyms m pos data >>= fun r => putSyms r.1 r.2 ck >>= fun r => put r.1 r.2 0

/-- What a call returned and the buffer afterwards. -/
abbrev Out := Res (Option Err × Bytes)

/-- A refused call: nothing is written. -/
def refuse (x : Err) (m : Bytes) : Out := .ok (some x, m)

/-- bech32.c:117-151 `nostr_key_to_bech32`. -/
def keyTo (key pre m : Bytes) : Out :=
  if pre.length = 0 ∨ m.length < pre.length + 1 + 52 + 6 + 1 then refuse .invalidParam m
  else
    let data := convertBits key 52 8 5 true
    if data = [] then refuse .encoding m
    else match createChecksum pre data with
      | none => refuse .encoding m
      | some ck =>
          copyAt m 0 pre >>= fun a => put a pre.length 0x31 >>= fun a =>
          putTail a (pre.length + 1) data ck >>= fun a => .ok (none, a)

/-- bech32.c:205-237 `nostr_privkey_to_bech32` (`hrp` is "nsec") and 276-308 `nostr_event_id_to_bech32` ("note"). -/
def fixedTo (hrp key m : Bytes) : Out :=
  if m.length < 64 then refuse .invalidParam m
  else
    let data := convertBits key 52 8 5 true
    if data = [] then refuse .encoding m
    else match createChecksum hrp data with
      | none => refuse .encoding m
      | some ck => copyAt m 0 (hrp ++ c!"1") >>= fun a => putTail a 5 data ck >>= fun a => .ok (none, a)

/-- nip21.c:60-98 `encode_bytes_to_bech32`. A failed checksum is not noticed there: `checksum` is read uninitialised. -/
def bytesTo (data hrp m : Bytes) : Out :=
  let conv := convertBits data ((data.length * 8 + 4) / 5) 8 5 true
  if conv = [] then refuse .encoding m
  else if m.length < hrp.length + 1 + conv.length + 6 + 1 then refuse .invalidParam m
  else match createChecksum hrp conv with
    | none => .ub
    | some ck =>
        copyAt m 0 hrp >>= fun a => put a hrp.length 0x31 >>= fun a =>
        putTail a (hrp.length + 1) conv ck >>= fun a => .ok (none, a)

/-- nip21.c:229-240 `nostr_nprofile_encode`. -/
def nprofileTo (p : Nip21.NProfile) (m : Bytes) : Out :=
  let tlv := Nip21.buildTlv 4096 p.pubkey p.relays none none
  if tlv = [] then refuse .encoding m else bytesTo tlv c!"nprofile" m

/-- nip21.c:279-291 `nostr_nevent_encode`. -/
def neventTo (e : Nip21.NEvent) (m : Bytes) : Out :=
  let tlv := Nip21.buildTlv 4096 e.id e.relays e.author e.kind
  if tlv = [] then refuse .encoding m else bytesTo tlv c!"nevent" m

/-- nip21.c:323-335 `nostr_naddr_encode`. -/
def naddrTo (a : Nip21.NAddr) (m : Bytes) : Out :=
  let tlv := Nip21.buildTlv 4096 a.identifier a.relays (some a.pubkey) (some a.kind)
  if tlv = [] then refuse .encoding m else bytesTo tlv c!"naddr" m

/-- nip21.c:373-385 `nostr_nrelay_encode`. -/
def nrelayTo (url m : Bytes) : Out :=
  if url.length = 0 ∨ url.length ≥ Nip21.maxRelayLen then refuse .invalidParam m
  else bytesTo ([0, UInt8.ofNat url.length] ++ url) c!"nrelay" m

/-- nip21.c:465-489: the encoders behind `nostr_uri_encode`. -/
def bodyTo (u : Nip21.Uri) (m : Bytes) : Out :=
  match u with
  | .npub k => keyTo k c!"npub" m
  | .nsec k => fixedTo c!"nsec" k m
  | .note i => fixedTo c!"note" i m
  | .nprofile p => nprofileTo p m
  | .nevent e => neventTo e m
  | .naddr a => naddrTo a m
  | .nrelay r => nrelayTo r m

/-- nip21.c:458-496 `nostr_uri_encode`: the entity is written to `output + 6`, then "nostr:" in front of it. -/
def uriTo (u : Nip21.Uri) (m : Bytes) : Out :=
  if m.length < 7 then refuse .invalidParam m
  else
    bodyTo u (m.drop 6) >>= fun r =>
    match r.1 with
    | some x => .ok (some x, m.take 6 ++ r.2)
    | none => copyAt (m.take 6 ++ r.2) 0 c!"nostr:" >>= fun a => .ok (none, a)

/-- nip05.c:138-165 `nostr_nip05_build_url`. -/
def urlTo (name domain m : Bytes) : Out :=
  if name.length > 64 ∨ domain.length > 256 then refuse .invalidParam m
  else if m.length < 38 + name.length + domain.length then refuse .invalidParam m
  else
    copyAt m 0 c!"https://" >>= fun a => copyAt a 8 domain >>= fun a =>
    copyAt a (8 + domain.length) c!"/.well-known/nostr.json?name=" >>= fun a =>
    copyAt a (8 + domain.length + 29) name >>= fun a =>
    put a (8 + domain.length + 29 + name.length) 0 >>= fun a => .ok (none, a)

/-- nip49.c:247-322 `nostr_ncryptsec_encrypt`. -/
def ncryptsecTo (L : Nip49.Lib) (salt nonce : Option Bytes) (privkey password : Bytes) (logN : UInt8) (m : Bytes) : Out :=
  if password.length = 0 ∨ logN < 16 ∨ logN > 22 ∨ m.length < 163 then refuse .invalidParam m
  else match salt, nonce with
    | some salt, some nonce =>
      match Nip49.deriveKey L password salt logN with
      | none => refuse .encoding m
      | some key =>
        match Nip49.xEncrypt L key nonce [2] privkey with
        | none => refuse .encoding m
        | some (ct, mac) =>
          let payload : Bytes := [2, logN] ++ salt ++ nonce ++ [2] ++ ct ++ mac
          let data := convertBits payload 146 8 5 true
          if data = [] then refuse .encoding m
          else match createChecksum c!"ncryptsec" data with
            | none => refuse .encoding m
            | some ck => copyAt m 0 c!"ncryptsec1" >>= fun a => putTail a 10 data ck >>= fun a => .ok (none, a)
    | _, _ => refuse .memory m

/-- hd_key.c:345-371: the words from `is` on are written at `pos`; a word without room ends the call, the words before it
stay in the buffer. -/
def wordsTo (combined m : Bytes) (pos : Nat) : List Nat → Out
  | [] => put m pos 0 >>= fun a => .ok (none, a)
  | i :: is =>
    match Hd.words[Hd.indexAt combined i]? with
    | none => .ub
    | some word =>
      if pos + word.length + (if i > 0 then 1 else 0) ≥ m.length then .ok (some .invalidParam, m)
      else if i > 0 then
        put m pos 0x20 >>= fun a => copyAt a (pos + 1) word >>= fun a => wordsTo combined a (pos + 1 + word.length) is
      else copyAt m pos word >>= fun a => wordsTo combined a (pos + word.length) is

/-- hd_key.c:315-377 `nostr_mnemonic_generate`; `entropy` is what `nostr_random_bytes` delivers, `none` when it fails. -/
def mnemonicTo (C : Hd.Crypto) (entropy : Option Bytes) (wordCount : Int) (m : Bytes) : Out :=
  if m.length = 0 then refuse .invalidParam m
  else if wordCount ≠ 12 ∧ wordCount ≠ 24 then refuse .invalidParam m
  else match entropy with
    | none => refuse .memory m
    | some e => wordsTo (e ++ [(C.sha256 e).getD 0 0] ++ List.replicate (33 - e.length) 0) m 0 (List.range wordCount.toNat)

end Nostr.Outbuf.Encode
