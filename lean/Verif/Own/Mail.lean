import Verif.Own.Build
import Verif.Gift.Model

/-!
# Memory of seals, gift wraps and messages (src/nip17.c, src/nip59.c)

The values are those of `Verif/Gift/Model.lean`; this file adds the blocks: the events, the JSON texts, the encrypted texts.
Of `nostr_nip44_encrypt`, `nostr_nip44_decrypt` and `nostr_event_to_json` only the text delivered is a block here.
-/

namespace Nostr.Own.Mail
open Nostr Nostr.Heap Nostr.Event Nostr.Own.Ev Nostr.Own.Build

/-- `nostr_event_to_json`, `nostr_nip44_encrypt` and `free` of the JSON text (nip17.c:104-113, 219-230; nip59.c:342-352, 449-461): the
encrypted text and its block, or an error. -/
def cipher (A : Alloc) (text : Res Bytes) (enc : Bytes → Res Bytes) : M (Except Err (Bytes × Nat)) :=
  match text with
  | .ub => fun _ => none
  | .err x => M.pure (.error x)
  | .ok t =>
    M.bind (alloc A (.str t)) fun j =>
    match j with
    | none => M.pure (.error .memory)
    | some j =>
      match enc t with
      | .ub => fun _ => none
      | .err x => M.bind (free (some j)) fun _ => M.pure (.error x)
      | .ok ct =>
        M.bind (alloc A (.str ct)) fun c =>
        match c with
        | none => M.bind (free (some j)) fun _ => M.pure (.error .memory)
        | some c => M.bind (free (some j)) fun _ => M.pure (.ok (ct, c))

/-- The event `e` once created gets its first values (`v`; nip17.c:122-167, 242-251; nip59.c:362-401, 472-474), then the encrypted
text `ct`, whose block is released, then the rest (`os`). -/
def fill (A : Alloc) (cfg : Option Config.Config) (grow : Event → List Bytes → Bool) (ct : Bytes) (c : Nat) (v : Res Event) (os : List Op)
    (e : HEv) : M Out :=
  match v with
  | .ub => fun _ => none
  | .err x => M.bind (destroy e) fun _ => M.bind (free (some c)) fun _ => M.pure ⟨some x, none, none⟩
  | .ok v =>
    M.bind (setText A e ct) fun q =>
    M.bind (free (some c)) fun _ =>
    match q.1 with
    | some x => giveUp true q.2 x
    | none => run A cfg grow true { v with content := some ct } q.2 os

/-- Encrypting a text and building the event that carries it. -/
def sealed (A : Alloc) (cfg : Option Config.Config) (grow : Event → List Bytes → Bool) (old : Option Nat) (text : Res Bytes)
    (enc : Bytes → Res Bytes) (v : Res Event) (os : List Op) : M Out :=
  M.bind (cipher A text enc) fun r =>
  match r with
  | .error x => refuse old x
  | .ok (ct, c) =>
    M.bind (createInto A) fun k =>
    match k.1 with
    | none => M.bind (free (some c)) fun _ => M.pure ⟨some .memory, k.2, none⟩
    | some e => fill A cfg grow ct c v os e

/-- The key of a seal's author: nip17.c:130-165, nip59.c:365-398. -/
def sealHead (E : Gift.Env) (sk : Bytes) (time : Int) : Res Event :=
  match E.crypto.pubOf sk with
  | none => .err .invalidKey
  | some pk => .ok { zero with kind := 13, createdAt := time, pubkey := pk }

/-- Identifier and signature: nip17.c:177-191, nip59.c:411-426. -/
def signed (E : Gift.Env) (aux : Option Bytes) (sk : Bytes) : List Op :=
  [.hash (computeId E.crypto E.build), .hash (sign E.crypto E.build aux sk)]

/-- nip17.c:55-90 `nostr_nip17_create_rumor`. -/
def rumor17 (A : Alloc) (E : Gift.Env) (grow : Event → List Bytes → Bool) (now : Int) (kind : Nat) (pk content : Bytes) (createdAt : Int) : M Out :=
  build A E.cfg grow true { zero with kind := kind, pubkey := pk, createdAt := if createdAt ≠ 0 then createdAt else now }
    [.text content, .hash fun v => computeId E.crypto E.build v >>= fun e => .ok { e with sig := List.replicate 64 0 }]

/-- nip59.c:287-326 `nostr_nip59_create_rumor`. -/
def rumor59 (A : Alloc) (E : Gift.Env) (grow : Event → List Bytes → Bool) (now : Int) (kind : Nat) (pk : Bytes) (content : Option Bytes) : M Out :=
  build A E.cfg grow true { zero with kind := kind, pubkey := pk, createdAt := now }
    (content.toList.map .text ++ [.hash fun v => computeId E.crypto E.build v >>= fun e => .ok { e with sig := List.replicate 64 0 }])

/-- nip17.c:92-195 `nostr_nip17_create_seal`. -/
def seal17 (A : Alloc) (E : Gift.Env) (grow : Event → List Bytes → Bool) (old : Option Nat) (D : Gift.Draw) (rumor : Event) (sk rpk : Bytes) : M Out :=
  sealed A E.cfg grow old (toJson E.build rumor) (fun t => Nip44.encrypt E.nc E.b64 E.cfg D.nonce sk rpk t)
    (Gift.pastTwoDays D.now D.offset >>= fun time => sealHead E sk time) (signed E D.aux sk)

/-- nip59.c:328-429 `nostr_nip59_create_seal`. -/
def seal59 (A : Alloc) (E : Gift.Env) (grow : Event → List Bytes → Bool) (old : Option Nat) (D : Gift.Draw) (rumor : Event) (sk rpk : Bytes) : M Out :=
  sealed A E.cfg grow old (toJson E.build rumor) (fun t => Nip44.encrypt E.nc E.b64 E.cfg D.nonce sk rpk t)
    (sealHead E sk (Gift.randomize D.now D.offset)) (signed E D.aux sk)

/-- nip59.c:505-519: the extra tags, two values each. -/
def pairOps : List Bytes → List Op
  | a :: b :: ts => .tag [a, b] :: pairOps ts
  | _ => []

/-- nip17.c:197-290 `nostr_nip17_create_gift_wrap`; `eph` is the outcome of `nostr_key_generate`. -/
def wrap17 (A : Alloc) (E : Gift.Env) (grow : Event → List Bytes → Bool) (old : Option Nat) (D : Gift.Draw) (eph : Res (Bytes × Bytes))
    (sl : Event) (rpk : Bytes) : M Out :=
  match eph with
  | .ub => fun _ => none
  | .err x => refuse old x
  | .ok k =>
    sealed A E.cfg grow old (toJson E.build sl) (fun t => Nip44.encrypt E.nc E.b64 E.cfg D.nonce k.1 rpk t)
      (Gift.pastTwoDays D.now D.offset >>= fun time => .ok { zero with kind := 1059, createdAt := time, pubkey := k.2 })
      (.tag [c!"p", Hex.hexEncode rpk] :: signed E D.aux k.1)

/-- nip59.c:431-539 `nostr_nip59_create_gift_wrap`. -/
def wrap59 (A : Alloc) (E : Gift.Env) (grow : Event → List Bytes → Bool) (old : Option Nat) (D : Gift.Draw) (eph : Res (Bytes × Bytes))
    (sl : Event) (rpk : Bytes) (extra : List Bytes) : M Out :=
  match eph with
  | .ub => fun _ => none
  | .err x => refuse old x
  | .ok k =>
    sealed A E.cfg grow old (toJson E.build sl) (fun t => Nip44.encrypt E.nc E.b64 E.cfg D.nonce k.1 rpk t)
      (.ok { zero with kind := 1059, createdAt := Gift.randomize D.now D.offset, pubkey := k.2 })
      (.tag [c!"p", Hex.hexEncode rpk] :: (pairOps extra ++ signed E D.aux k.1))

/-- nip17.c:292-392 `nostr_nip17_send_dm`: the inner message, the seal, the gift wrap; `old` is what `*dm` was. -/
def sendDm (A : Alloc) (E : Gift.Env) (grow : Event → List Bytes → Bool) (old : Option Nat) (D1 D2 : Gift.Draw) (eph : Res (Bytes × Bytes))
    (content sk rpk : Bytes) (subject replyTo : Option Bytes) (createdAt : Int) : M Out :=
  match E.crypto.pubOf sk with
  | none => refuse old .invalidKey
  | some pk =>
    M.bind (build A E.cfg grow true { zero with kind := 14, pubkey := pk, createdAt := if createdAt ≠ 0 then createdAt else D1.now }
      (.text content :: .hash (fun v => computeId E.crypto E.build v >>= fun e => .ok { e with sig := List.replicate 64 0 }) ::
        (Gift.dmTags rpk subject replyTo).map .tag)) fun o =>
    match o.ev with
    | none => M.pure ⟨o.status, old, none⟩
    | some (rumor, er) =>
      M.bind (seal17 A E grow none D1 rumor sk rpk) fun s =>
      M.bind (destroy er) fun _ =>
      match s.ev with
      | none => M.pure ⟨s.status, old, none⟩
      | some (sl, es) =>
        M.bind (wrap17 A E grow old D2 eph sl rpk) fun w =>
        M.bind (destroy es) fun _ => M.pure w

/-- nip59.c:145-217: the gift wrap of a seal that is destroyed once it is encrypted. -/
def wrapSeal (A : Alloc) (E : Gift.Env) (grow : Event → List Bytes → Bool) (old : Option Nat) (D : Gift.Draw) (eph : Res (Bytes × Bytes))
    (sl : Event) (es : HEv) (rpk : Bytes) : M Out :=
  match eph with
  | .ub => fun _ => none
  | .err x => M.bind (destroy es) fun _ => refuse old x
  | .ok k =>
    M.bind (cipher A (toJson E.build sl) fun t => Nip44.encrypt E.nc E.b64 E.cfg D.nonce k.1 rpk t) fun r =>
    M.bind (destroy es) fun _ =>
    match r with
    | .error x => refuse old x
    | .ok (ct, c) =>
      M.bind (createInto A) fun q =>
      match q.1 with
      | none => M.bind (free (some c)) fun _ => M.pure ⟨some .memory, q.2, none⟩
      | some e => fill A E.cfg grow ct c (.ok { zero with kind := 1059, createdAt := Gift.randomize D.now D.offset, pubkey := k.2 })
          (.tag [c!"p", Hex.hexEncode rpk] :: signed E D.aux k.1) e

/-- nip59.c:37-218 `nostr_nip59_wrap_event`. -/
def wrapEvent (A : Alloc) (E : Gift.Env) (grow : Event → List Bytes → Bool) (old : Option Nat) (D1 D2 : Gift.Draw) (eph : Res (Bytes × Bytes))
    (event : Event) (sk rpk : Bytes) : M Out :=
  match toJson E.build event with
  | .ub => fun _ => none
  | .err x => refuse old x
  | .ok t =>
    M.bind (alloc A (.str t)) fun j =>
    match j with
    | none => refuse old .memory
    | some j =>
      M.bind (createInto A) fun k =>
      match k.1 with
      | none => M.bind (free (some j)) fun _ => refuse old .memory
      | some e =>
        match sealHead E sk (Gift.randomize D1.now D1.offset) with
        | .ub => fun _ => none
        | .err x => M.bind (destroy e) fun _ => M.bind (free (some j)) fun _ => refuse old x
        | .ok v =>
          M.bind (secretStep A (some j) (Nip44.encrypt E.nc E.b64 E.cfg D1.nonce sk rpk t) v e) fun q =>
          match q.1 with
          | some x => M.bind (destroy q.2.2) fun _ => refuse old x
          | none =>
            M.bind (run A E.cfg grow true q.2.1 q.2.2 (signed E D1.aux sk)) fun s =>
            match s.ev with
            | none => M.pure ⟨s.status, old, none⟩
            | some (sl, es) => wrapSeal A E grow old D2 eph sl es rpk

/-! ## Opening -/

/-- `nostr_nip44_decrypt` (nip17.c:408-412, 442-444; nip59.c:237-241, 267-269): the text and its block. -/
def decrypted (A : Alloc) (E : Gift.Env) (sk pk : Bytes) (content : Option Bytes) : M (Except Err (Bytes × Nat)) :=
  match content with
  | none => M.pure (.error .invalidParam)
  | some t =>
    match Nip44.decrypt E.nc E.b64 E.cfg sk pk t with
    | .ub => fun _ => none
    | .err x => M.pure (.error x)
    | .ok m =>
      M.bind (alloc A (.str m)) fun j =>
      match j with
      | none => M.pure (.error .memory)
      | some j => M.pure (.ok (m, j))

/-- `nostr_event_from_json` of that text and `free` (nip17.c:418-420, 450-452; nip59.c:245-247, 276-278). Without cJSON no event
is read (event.c:588-590). -/
def parsed (A : Alloc) (E : Gift.Env) (grow : Event → List Bytes → Bool) (m : Bytes) (j : Nat) : M (Option Err × Event × Option HEv) :=
  match E.build with
  | .plain => M.bind (free (some j)) fun _ => M.pure (some .notSupported, zero, none)
  | .cjson _ _ => M.bind (fromJson A E.plat E.cfg grow (Json.cstr m)) fun r => M.bind (free (some j)) fun _ => M.pure r

/-- `nostr_event_verify`, with the serialised event as a block (event.c:694-762). -/
def verified (A : Alloc) (E : Gift.Env) (v : Event) : M (Option Err) :=
  M.bind (alloc A blob) fun t =>
  match t with
  | none => M.pure (some .memory)
  | some t =>
    M.bind (free (some t)) fun _ =>
    match verify E.crypto E.build v with
    | .ub => fun _ => none
    | .err x => M.pure (some x)
    | .ok _ => M.pure none

/-- nip17.c:404-434, nip59.c:230-263: the verified seal of a gift wrap. -/
def openSeal (A : Alloc) (E : Gift.Env) (grow : Event → List Bytes → Bool) (wrap : Event) (sk : Bytes) : M (Except Err (Event × HEv)) :=
  if wrap.kind ≠ 1059 then M.pure (.error .invalidEvent)
  else
    M.bind (decrypted A E sk wrap.pubkey wrap.content) fun d =>
    match d with
    | .error x => M.pure (.error x)
    | .ok (m, j) =>
      M.bind (parsed A E grow m j) fun r =>
      match r.1, r.2.2 with
      | none, some e =>
        if r.2.1.kind ≠ 13 then M.bind (destroy e) fun _ => M.pure (.error .invalidEvent)
        else
          M.bind (verified A E r.2.1) fun x =>
          match x with
          | some x => M.bind (destroy e) fun _ => M.pure (.error x)
          | none => M.pure (.ok (r.2.1, e))
      | some x, _ => M.pure (.error x)
      | none, none => fun _ => none

/-- nip17.c:394-464 `nostr_nip17_unwrap_dm`: the message and its blocks, or an error. -/
def unwrapDm (A : Alloc) (E : Gift.Env) (grow : Event → List Bytes → Bool) (wrap : Event) (sk : Bytes) : M (Except Err (Event × HEv)) :=
  M.bind (openSeal A E grow wrap sk) fun r =>
  match r with
  | .error x => M.pure (.error x)
  | .ok (sl, es) =>
    M.bind (decrypted A E sk sl.pubkey sl.content) fun d =>
    M.bind (destroy es) fun _ =>
    match d with
    | .error x => M.pure (.error x)
    | .ok (m, j) =>
      M.bind (parsed A E grow m j) fun r =>
      match r.1, r.2.2 with
      | none, some e =>
        if r.2.1.pubkey ≠ sl.pubkey then M.bind (destroy e) fun _ => M.pure (.error .invalidEvent)
        else M.pure (.ok (r.2.1, e))
      | some x, _ => M.pure (.error x)
      | none, none => fun _ => none

/-- nip59.c:220-285 `nostr_nip59_unwrap_event`: the seal is destroyed at the end. -/
def unwrapEvent (A : Alloc) (E : Gift.Env) (grow : Event → List Bytes → Bool) (wrap : Event) (sk : Bytes) : M (Except Err (Event × HEv)) :=
  M.bind (openSeal A E grow wrap sk) fun r =>
  match r with
  | .error x => M.pure (.error x)
  | .ok (sl, es) =>
    M.bind (decrypted A E sk sl.pubkey sl.content) fun d =>
    match d with
    | .error x => M.bind (destroy es) fun _ => M.pure (.error x)
    | .ok (m, j) =>
      M.bind (parsed A E grow m j) fun r =>
      M.bind (destroy es) fun _ =>
      match r.1, r.2.2 with
      | none, some e => M.pure (.ok (r.2.1, e))
      | some x, _ => M.pure (.error x)
      | none, none => fun _ => none

end Nostr.Own.Mail
