import Verif.Nip25.Model
import Verif.Nip18.Model
import Verif.Nip10.Model
import Verif.Nip05.Model

/-!
# Texts handed out in buffers of the caller (nip05.c, nip10.c, nip18.c, nip25.c)

A buffer is the memory the caller lends: as many bytes as the size argument says. Every byte of it is followed, also on
failure and also the bytes that stay. Arguments other than output pointers are non-NULL, tag values are non-NULL C strings,
and allocation succeeds (see C183 for the thread lookups without memory).
-/

namespace Nostr.Outbuf
open Nostr Nostr.Event

/-- An output pointer with its size: `none` is NULL. -/
abbrev Buf := Option Bytes

/-- `dest[i] = c`. -/
def put (dest : Bytes) (i : Nat) (c : UInt8) : Res Bytes := if i < dest.length then .ok (dest.set i c) else .ub

/-- C `strncpy(dest, src, n)`: at most `n` bytes of the text, the rest of the `n` bytes zero. -/
def strncpy (dest src : Bytes) (n : Nat) : Res Bytes :=
  if n ≤ dest.length then .ok (src.take n ++ List.replicate (n - src.length) 0 ++ dest.drop n) else .ub

/-- C `memcpy(dest, src, src_len)` from a text. -/
def memcpy (dest src : Bytes) : Res Bytes :=
  if src.length ≤ dest.length then .ok (src ++ dest.drop src.length) else .ub

/-- nip18.c:108-118 and nip25.c:84-94 `copy_str_safe`. -/
def copyStrSafe (dest : Buf) (src : Option Bytes) : Res Buf :=
  match dest with
  | none => .ok none
  | some m =>
      if m.length = 0 then .ok (some m)
      else match src with
        | none => put m 0 0 >>= fun a => .ok (some a)
        | some s => strncpy m s (m.length - 1) >>= fun a => put a (m.length - 1) 0 >>= fun b => .ok (some b)

/-- The output arguments of `nostr_reaction_parse`; `kind = none` is a NULL pointer. -/
structure Reaction where
  content : Buf
  id : Buf
  pubkey : Buf
  kind : Option Nat
  deriving DecidableEq, Repr

/-- nip25.c:96-146 `nostr_reaction_parse`: the return value (`none` is OK) and the outputs. The local tag scan is
`Nip25.scanTag`, with `target_kind` NULL the number read is dropped. -/
def reactionParse (e : Event) (o : Reaction) : Res (Option Err × Reaction) :=
  if e.kind ≠ 7 then .ok (some .invalidEvent, o)
  else
    copyStrSafe o.content e.content >>= fun content =>
    copyStrSafe o.id none >>= fun id =>
    copyStrSafe o.pubkey none >>= fun pubkey =>
    let f := e.tags.foldl Nip25.scanTag ⟨none, none, 0⟩
    copyStrSafe id f.id >>= fun id =>
    copyStrSafe pubkey f.pubkey >>= fun pubkey =>
    .ok (if f.id.isSome then none else some .notFound, ⟨content, id, pubkey, o.kind.map fun _ => f.kind⟩)

/-- The output arguments of `nostr_repost_parse`. -/
structure Repost where
  id : Buf
  pubkey : Buf
  relay : Buf
  kind : Option Nat
  deriving DecidableEq, Repr

/-- nip18.c:120-166 `nostr_repost_parse`. -/
def repostParse (e : Event) (o : Repost) : Res (Option Err × Repost) :=
  if e.kind ≠ 6 ∧ e.kind ≠ 16 then .ok (some .invalidEvent, o)
  else
    let f := e.tags.foldl Nip18.scanTag ⟨none, none, none, if e.kind = 6 then 1 else 0⟩
    copyStrSafe o.id f.id >>= fun id =>
    copyStrSafe o.pubkey f.pubkey >>= fun pubkey =>
    copyStrSafe o.relay f.relay >>= fun relay =>
    .ok (if f.id.isSome then none else some .notFound, ⟨id, pubkey, relay, o.kind.map fun _ => f.kind⟩)

/-- The output arguments of the thread lookups. -/
structure Place where
  id : Buf
  relay : Buf
  deriving DecidableEq, Repr

/-- nip10.c:114-115: `if (relay_hint && relay_hint_size > 0) relay_hint[0] = '\0'`. -/
def clear (b : Buf) : Res Buf :=
  match b with
  | none => .ok none
  | some m => if m.length > 0 then put m 0 0 >>= fun a => .ok (some a) else .ok (some m)

/-- nip10.c:94-103 `copy_id_and_relay`. -/
def copyIdAndRelay (i : Nip10.Info) (id : Bytes) (relay : Buf) : Res (Bytes × Buf) :=
  strncpy id i.id (id.length - 1) >>= fun a => put a (id.length - 1) 0 >>= fun a =>
  match relay with
  | none => .ok (a, none)
  | some m =>
      if m.length > 0 ∧ i.relay ≠ [] then
        strncpy m i.relay (m.length - 1) >>= fun b => put b (m.length - 1) 0 >>= fun b => .ok (a, some b)
      else .ok (a, some m)

/-- nip10.c:123-141: the entry that is copied. -/
def pick (is : List Nip10.Info) (marker : Bytes) (last : Bool) : Option Nip10.Info :=
  (is.find? fun x => x.marker == marker).or (if last then is.getLast? else is.head?)

/-- nip10.c:105-145 `find_e_tag_by_marker`; `last` is `use_positional_fallback == 1`. -/
def find (e : Event) (marker : Bytes) (last : Bool) (o : Place) : Res (Option Err × Place) :=
  match o.id with
  | none => .ok (some .invalidParam, o)
  | some id =>
      if id.length < 65 then .ok (some .invalidParam, o)
      else
        put id 0 0 >>= fun id =>
        clear o.relay >>= fun relay =>
        match pick (Nip10.collect e.tags) marker last with
        | none => .ok (some .notFound, ⟨some id, relay⟩)
        | some i => copyIdAndRelay i id relay >>= fun r => .ok (none, ⟨some r.1, r.2⟩)

/-- nip10.c:147-151 `nostr_event_get_root_id`. -/
def rootId (e : Event) (o : Place) : Res (Option Err × Place) := find e (c!"root") false o

/-- nip10.c:153-157 `nostr_event_get_reply_id`. -/
def replyId (e : Event) (o : Place) : Res (Option Err × Place) := find e (c!"reply") true o

/-- nip05.c:16-20 `str_tolower(s, len)` on memory. -/
def lowerIn (m : Bytes) (len : Nat) : Res Bytes :=
  if len ≤ m.length then .ok (Nip05.lower (m.take len) ++ m.drop len) else .ub

/-- nip05.c:118-120 and 122-124: a part of the identifier is stored. -/
def store (dest part : Bytes) : Res Bytes :=
  memcpy dest part >>= fun a => put a part.length 0 >>= fun b => lowerIn b part.length

/-- nip05.c:102-127 `nostr_nip05_parse`: the return value and the two buffers; `none` is NULL. -/
def identifierParse (identifier : Bytes) (name domain : Buf) : Res (Option Err × Buf × Buf) :=
  match name, domain with
  | some n, some d =>
      if n.length < 2 ∨ d.length < 4 then .ok (some .invalidParam, some n, some d)
      else match identifier.dropWhile (· != 0x40) with
        | [] => .ok (some .invalidParam, some n, some d)
        | _ :: dom =>
            let loc := identifier.takeWhile (· != 0x40)
            if !Nip05.validLocal loc then .ok (some .invalidParam, some n, some d)
            else if !Nip05.validDomain dom then .ok (some .invalidParam, some n, some d)
            else if loc.length ≥ n.length ∨ dom.length ≥ d.length then .ok (some .invalidParam, some n, some d)
            else
              store n loc >>= fun n => store d dom >>= fun d => .ok (none, some n, some d)
  | n, d => .ok (some .invalidParam, n, d)

end Nostr.Outbuf
