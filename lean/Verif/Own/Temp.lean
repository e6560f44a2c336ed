import Verif.Own.Basic
import Verif.Nip10.Model
import Verif.Hd.Model

/-!
# Memory that is taken for the time of a call (src/nip10.c, src/hd_key.c)

Looking up the events a note answers, and handling mnemonics and derivation paths. Every `strtok_r` reads the copy it works on
(`load`), so that a copy released too early shows; its contents, the text with some separators replaced, are not followed, the
tokens are those of the text. What OpenSSL allocates inside HMAC and PBKDF2 is not modelled.
-/

namespace Nostr.Own.Temp
open Nostr Nostr.Heap Nostr.Text
open Nostr.Event (Event)
open Nostr.Nip10 (Info parseE copyOut)
open Nostr.Hd (Crypto HdKey component derive wordIndex wordLoop checkSum isAscii fromSeed toKeypair)

/-- nip10.c:60-64: the tags that are counted. -/
def counts : List Bytes → Bool
  | name :: _ :: _ => name == c!"e"
  | _ => false

/-- nip10.c:51-92 `collect_e_tags`: the array and its entries. The entries are kept as values; the block stands for their
memory. -/
def collect (A : Alloc) (tags : List (List Bytes)) : M (Res (Option Nat × List Info)) :=
  if (tags.filter counts).length = 0 then M.pure (.err .notFound)
  else M.bind (alloc A (.str [])) fun p =>
    match p with
    | none => M.pure (.err .memory)
    | some a =>
      match tags.filterMap parseE with
      | [] => M.bind (free (some a)) fun _ => M.pure (.err .notFound)
      | i :: is => M.pure (.ok (some a, (i :: is).take (tags.filter counts).length))

/-- `e_tags[i]`: reading an entry needs the array. -/
def entry (p : Option Nat) (l : List Info) (i : Nat) : M Info := fun h =>
  match p with
  | none => none
  | some a => if (h.mem a).isSome then (l[i]?).map fun x => (x, h) else none

/-- nip10.c:123-129: search from entry `i` on, `n` entries being left. -/
def search (p : Option Nat) (l : List Info) (marker : Bytes) : Nat → Nat → M (Option Info)
  | 0, _ => M.pure none
  | n + 1, i => M.bind (entry p l i) fun x => if x.marker == marker then M.pure (some x) else search p l marker n (i + 1)

/-- nip10.c:105-145 `find_e_tag_by_marker`; `last` is `use_positional_fallback == 1`. -/
def findByMarker (A : Alloc) (e : Event) (marker : Bytes) (last : Bool) (idSize relaySize : Nat) : M (Res (Bytes × Bytes)) :=
  if idSize < 65 then M.pure (.err .invalidParam)
  else M.bind (collect A e.tags) fun r =>
    match r with
    | .err x => M.pure (.err x)
    | .ub => fun _ => none
    | .ok (p, l) => M.bind (search p l marker l.length 0) fun f =>
      match f with
      | some x => M.bind (free p) fun _ => M.pure (.ok (copyOut x idSize relaySize))
      | none =>
        if last = false then M.bind (entry p l 0) fun x => M.bind (free p) fun _ => M.pure (.ok (copyOut x idSize relaySize))
        else if l.length ≥ 1 then
          M.bind (entry p l (l.length - 1)) fun x => M.bind (free p) fun _ => M.pure (.ok (copyOut x idSize relaySize))
        else M.bind (free p) fun _ => M.pure (.err .notFound)

/-- nip10.c:147-151 `nostr_event_get_root_id`. -/
def getRootId (A : Alloc) (e : Event) (idSize relaySize : Nat) : M (Res (Bytes × Bytes)) :=
  findByMarker A e c!"root" false idSize relaySize

/-- nip10.c:153-157 `nostr_event_get_reply_id`. -/
def getReplyId (A : Alloc) (e : Event) (idSize relaySize : Nat) : M (Res (Bytes × Bytes)) :=
  findByMarker A e c!"reply" true idSize relaySize

/-- nip10.c:209-222 `nostr_event_is_reply`: `*is_reply`; the function reports success whatever the lookup says. -/
def isReply (A : Alloc) (e : Event) : M Bool :=
  M.bind (getReplyId A e 65 0) fun r =>
    match r with
    | .ok (id, _) => M.pure (decide (id ≠ []))
    | .err _ => M.pure false
    | .ub => fun _ => none

/-- hd_key.c:232-271: the loop over the components of the path in the copy `c`. -/
def pathLoop (C : Crypto) (c : Nat) : List Bytes → HdKey → M (Res HdKey)
  | [], current => M.bind (load c) fun _ => M.bind (free (some c)) fun _ => M.pure (.ok current)
  | t :: ts, current => M.bind (load c) fun _ =>
    match component t with
    | none => M.bind (free (some c)) fun _ => M.pure (.err .invalidParam)
    | some index =>
      match derive C current index with
      | .ok next => pathLoop C c ts next
      | .err x => M.bind (free (some c)) fun _ => M.pure (.err x)
      | .ub => fun _ => none

/-- hd_key.c:208-279 `nostr_hd_key_derive_path`. -/
def derivePath (A : Alloc) (C : Crypto) (master : HdKey) (path : Bytes) : M (Res HdKey) :=
  match path with
  | [0x6d] => M.pure (.ok master)
  | 0x6d :: 0x2f :: rest => M.bind (alloc A (.str rest)) fun p =>
    match p with
    | none => M.pure (.err .memory)
    | some c => pathLoop C c (tokens 0x2f rest) master
  | _ => M.pure (.err .invalidParam)

/-- hd_key.c:394-416: the loop over the words in the copy `c`, with the indices read so far, and the release of the copy. -/
def readWords (c : Nat) : List Bytes → List Nat → M (Res (List Nat))
  | [], acc => M.bind (load c) fun _ => M.bind (free (some c)) fun _ => M.pure (.ok acc)
  | w :: ws, acc => M.bind (load c) fun _ =>
    if acc.length < 24 then
      match wordIndex w with
      | none => M.bind (free (some c)) fun _ => M.pure (.err .invalidParam)
      | some i => readWords c ws (acc ++ [i])
    else M.bind (free (some c)) fun _ => M.pure (.err .invalidParam)

/-- hd_key.c:418-457: what follows needs no memory. -/
def checkWords (C : Crypto) (indices : List Nat) : Res Unit := do
  let e ← (if indices.length = 12 ∨ indices.length = 24 then wordLoop indices 0 (List.replicate 33 0) else .err .invalidParam)
  if indices.length = 12 then checkSum C e 16 4 else checkSum C e 32 8

/-- hd_key.c:379-458 `nostr_mnemonic_validate`. -/
def validate (A : Alloc) (C : Crypto) (mnemonic : Bytes) : M (Res Unit) :=
  if mnemonic = [] then M.pure (.err .invalidParam)
  else M.bind (alloc A (.str mnemonic)) fun p =>
    match p with
    | none => M.pure (.err .memory)
    | some c => M.bind (readWords c (tokens 0x20 mnemonic) []) fun r =>
      match r with
      | .ok indices => M.pure (checkWords C indices)
      | .err x => M.pure (.err x)
      | .ub => fun _ => none

/-- hd_key.c:461-466 `nfkd_normalize` on a text that is not NULL: NULL when the text cannot be normalised or memory is short. -/
def normalize (A : Alloc) (norm : Bytes → Option Bytes) (s : Bytes) : M (Option Nat) :=
  match norm s with
  | none => M.pure none
  | some t => alloc A (.str t)

/-- hd_key.c:526-530, 536-537 / 549-556: the text of an owned copy. -/
def textOf : Option Nat → M Bytes
  | none => M.pure []
  | some a => loadStr a

/-- hd_key.c:507-560, after the check: the salt, PBKDF2, and the releases. `m` and `p` are the copies of the normalised texts,
`mnemonic` and `passphrase` the texts. -/
def derived (A : Alloc) (C : Crypto) (m p : Option Nat) (mnemonic passphrase : M Bytes) : M (Res Bytes) :=
  M.bind passphrase fun pt =>
  M.bind (alloc A (.str (c!"mnemonic" ++ pt))) fun s =>
    match s with
    | none => M.bind (free m) fun _ => M.bind (free p) fun _ => M.pure (.err .memory)
    | some a =>
      M.bind mnemonic fun mt =>
      M.bind (loadStr a) fun st =>
      M.bind (free (some a)) fun _ => M.bind (free m) fun _ => M.bind (free p) fun _ =>
        match C.pbkdf2 mt st 2048 64 with
        | none => M.pure (.err .memory)
        | some seed => M.pure (.ok seed)

/-- hd_key.c:478-562 `nostr_mnemonic_to_seed`; `passphrase` is `none` for NULL. -/
def toSeed (A : Alloc) (C : Crypto) (mnemonic : Bytes) (passphrase : Option Bytes) : M (Res Bytes) :=
  M.bind (validate A C mnemonic) fun r =>
    match r with
    | .err x => M.pure (.err x)
    | .ub => fun _ => none
    | .ok _ =>
      match C.nfkd with
      | some norm => M.bind (normalize A norm mnemonic) fun m =>
        match m with
        | none => M.pure (.err .memory)
        | some m =>
          match passphrase with
          | none => derived A C (some m) none (textOf (some m)) (textOf none)
          | some p => M.bind (normalize A norm p) fun q =>
            match q with
            | none => M.bind (free (some m)) fun _ => M.pure (.err .memory)
            | some q => derived A C (some m) (some q) (textOf (some m)) (textOf (some q))
      | none =>
        if isAscii mnemonic = false ∨ isAscii (passphrase.getD []) = false then M.pure (.err .invalidParam)
        else derived A C none none (M.pure mnemonic) (M.pure (passphrase.getD []))

/-- hd_key.c:564-598 `nostr_mnemonic_to_keypair`; `account` is a `uint32_t`. -/
def toKeypairOf (A : Alloc) (C : Crypto) (mnemonic : Bytes) (passphrase : Option Bytes) (account : Nat) : M (Res (Bytes × Bytes)) :=
  M.bind (toSeed A C mnemonic passphrase) fun r =>
    match r with
    | .err x => M.pure (.err x)
    | .ub => fun _ => none
    | .ok seed =>
      match fromSeed C seed with
      | .err x => M.pure (.err x)
      | .ub => fun _ => none
      | .ok master =>
        let path := c!"m/44'/1237'/" ++ Num.decNat account ++ c!"'/0/0"
        M.bind (derivePath A C master (path.take 63)) fun r =>
          match r with
          | .err x => M.pure (.err x)
          | .ub => fun _ => none
          | .ok k => M.pure (.ok (toKeypair k))

end Nostr.Own.Temp
