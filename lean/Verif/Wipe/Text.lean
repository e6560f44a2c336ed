import Verif.Wipe.Basic
import Verif.Bech32.Codec
import Verif.Nip47.Model

/-! # What secrets written and read as text leave in memory (src/bech32.c, src/nip47.c, src/nip21.c) -/

namespace Nostr.Wipe.Text
open Nostr Nostr.Wipe Nostr.Bech32

/-! ## nsec -/

/-- bech32.c:214, 220: the local buffers of `nostr_privkey_to_bech32`. -/
structure OutFrame where
  data : Bytes
  checksum : Bytes

/-- bech32.c:205-237 `nostr_privkey_to_bech32`, with the block that `bech32_create_checksum` (59-78) allocates, fills and
releases; `room` says whether there is memory for it. The block held `junk` before. -/
def nsecOut (room : Bool) (f : OutFrame) (junk key : Bytes) (size : Nat) : Run (Res Bytes) :=
  if size < 64 then ⟨.err .invalidParam, [f.data, f.checksum]⟩
  else
    let d := convertBits key 52 8 5 true
    let f := { f with data := over 0 d f.data }
    if d = [] then ⟨.err .encoding, [f.data, f.checksum]⟩
    else match hrpExpand c!"nsec" 84 with
      | none => ⟨.err .encoding, [f.data, f.checksum]⟩
      | some e =>
          if room = false then ⟨.err .encoding, [f.data, f.checksum]⟩
          else
            let combined := over 0 (e ++ d ++ List.replicate 6 0) junk
            let ck := checksumSyms (polymod (e ++ d ++ List.replicate 6 0) ^^^ 1#32)
            let f := { f with checksum := over 0 ck f.checksum }
            ⟨.ok (c!"nsec" ++ c!"1" ++ d.map charsetAt ++ ck.map charsetAt), [f.data, f.checksum, combined]⟩

/-- bech32.c:253, 266: the local buffers of `nostr_privkey_from_bech32`. -/
structure InFrame where
  data : Bytes
  decoded : Bytes

/-- bech32.c:239-274 `nostr_privkey_from_bech32` for a text of at least 11 characters (C05 says what happens below), with
the block of `bech32_verify_checksum` (42-57). Symbols that were read before a wrong character,
and what a conversion that fails has written, are left out. -/
def nsecIn (room : Bool) (f : InFrame) (junk s : Bytes) : Run (Res Bytes) :=
  if s.take 5 ≠ c!"nsec1" then ⟨.err .encoding, [f.data, f.decoded]⟩
  else if s.length < 11 ∨ s.length > 90 then ⟨.err .encoding, [f.data, f.decoded]⟩
  else match readSyms 84 0 (s.drop 5) with
    | .ub => ⟨.ub, [f.data, f.decoded]⟩
    | .err e => ⟨.err e, [f.data, f.decoded]⟩
    | .ok d =>
        let f := { f with data := over 0 d f.data }
        match hrpExpand c!"nsec" 84 with
        | none => ⟨.err .encoding, [f.data, f.decoded]⟩
        | some e =>
            if room = false then ⟨.err .encoding, [f.data, f.decoded]⟩
            else
              let combined := over 0 (e ++ d) junk
              if polymod (e ++ d) ≠ 1#32 then ⟨.err .encoding, [f.data, f.decoded, combined]⟩
              else
                let k := convertBits (d.take (s.length - 5 - 6)) 32 5 8 false
                let f := { f with decoded := over 0 k f.decoded }
                if k.length ≠ 32 then ⟨.err .encoding, [f.data, f.decoded, combined]⟩
                else ⟨.ok (f.decoded.take 32), [f.data, f.decoded, combined]⟩

/-! ## Connections of a wallet -/

/-- nip47.c:202-206: the first `=` of a parameter becomes a NUL. -/
def cutEq : Bytes → Bytes
  | [] => []
  | c :: t => if c = 0x3d then 0 :: t else c :: cutEq t

/-- nip47.c:199-247: the copy of the query after all its parameters were read: `strtok_r` replaces the `&` after each
parameter by a NUL and skips further ones. The argument are the pieces between the `&`. -/
def spent : List Bytes → Bytes
  | [] => []
  | [t] => cutEq t
  | t :: u :: ts => cutEq t ++ (if t = [] then 0x26 else 0) :: spent (u :: ts)

/-- nip47.c:155-264 `nostr_nip47_parse_connection_uri` where it succeeds: the copy of the query, released at line 249. The
failures and the other blocks, which hold no part of the secret, are left out. -/
def connIn (uri : Bytes) : Run (Res Nip47.Conn) :=
  match Nip47.parseUri uri, RelayProto.strchr 0x3f (uri.drop Nip47.scheme.length) with
  | .ok c, some (_, query) => ⟨.ok c, [spent (Nostr.Text.split 0x26 query)]⟩
  | r, _ => ⟨r, []⟩

/-- nip47.c:67-73 `struct nwc_connection`: the keys in it. -/
structure ConnKeys where
  service : Bytes
  secret : Bytes

/-- nip47.c:94-112 `free_connection`: what the structure holds when it is released. Used by
`nostr_nip47_free_connection`, by every failure of the parser, and when a session ends or is refused. -/
def connFree (k : ConnKeys) : Run Unit := ⟨(), [k.service, wipe 32 k.secret]⟩

/-! ## Addresses -/

/-- nip21.c:499-515 `nostr_uri_free`: what the union in the caller's structure (`size` bytes) holds afterwards. -/
def uriFree (data : Bytes) (size : Nat) : Run Unit := ⟨(), [wipe size data]⟩

end Nostr.Wipe.Text
