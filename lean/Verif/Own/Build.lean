import Verif.Own.Ev
import Verif.Nip18.Model
import Verif.Nip25.Model
import Verif.Nip51.Model
import Verif.Nip65.Model
import Verif.Nip46.Model
import Verif.Zap.Model

/-!
# Memory of the functions that build an event

`nostr_repost_create`, `nostr_reaction_create`, `nostr_relay_list_to_event`, `nostr_list_to_event`,
`nostr_zap_create_request`, `nostr_nip47_create_request_event` and `nostr_nip46_create_response` create an event, fill it
step by step and, when a step fails, destroy it. The value models of these functions are in the areas of the same name;
this file adds the blocks and the caller's pointer.
-/

namespace Nostr.Own.Build
open Nostr Nostr.Heap Nostr.Event Nostr.Own.Ev

/-- What a call leaves: the status, the caller's pointer `*event`, and the event with its values when there is one. -/
structure Out where
  status : Option Err
  ptr : Option Nat
  ev : Option (Event × HEv)
  deriving DecidableEq, Repr

/-- event.c:87-105 `nostr_event_create` and what it leaves in `*event`: NULL when `calloc` fails (lines 93-96), the address
just released when there is no memory for the arena (lines 98-101). -/
def createInto (A : Alloc) : M (Option HEv × Option Nat) :=
  M.bind (alloc A blob) fun e =>
  match e with
  | none => M.pure (none, none)
  | some e =>
    M.bind (alloc A blob) fun a =>
    match a with
    | none => M.bind (free (some e)) fun _ => M.pure (none, some e)
    | some a =>
      M.bind (alloc A blob) fun m =>
      match m with
      | none => M.bind (free (some a)) fun _ => M.bind (free (some e)) fun _ => M.pure (none, some e)
      | some m => M.pure (some ⟨e, none, a, m, none⟩, some e)

/-- event.c:119-132 `nostr_event_set_content` with a text that is not the event's own. -/
def setText (A : Alloc) (e : HEv) (t : Bytes) : M (Option Err × HEv) :=
  M.bind (free e.content) fun _ =>
  M.bind (alloc A (.str t)) fun c =>
  M.pure (if c = none then some .memory else none, { e with content := c })

/-- The steps by which an event is filled. -/
inductive Op
  /-- `nostr_event_set_content` -/
  | text (t : Bytes)
  /-- `nostr_event_add_tag` -/
  | tag (vs : List Bytes)
  /-- `nostr_event_add_tag` with a value in a block of its own (nip18.c:87-102) -/
  | ownTag (vs : List Bytes)
  /-- `nostr_nip44_encrypt` and `nostr_event_set_content` (nip47.c:511-522; nip51.c:529-556, where `block` says that the
  plain text is a block, too). `r` is what the encryption gives; of its memory only the text delivered is modelled. -/
  | secret (block : Bool) (r : Res Bytes)
  /-- `nostr_event_compute_id` or `nostr_event_sign` (event.c:362-380, 593-692), with the serialised event as a block.
  Other memory used by cJSON is not modelled. -/
  | hash (f : Event → Res Event)

/-- The failure path: nip18.c:30-34, nip25.c:28-32, nip65.c `cleanup_event`, nip51.c:566-569, nip46.c:119-121 set the
caller's pointer to NULL (`clear`); zap.c:60-107 does not. -/
def giveUp (clear : Bool) (e : HEv) (x : Err) : M Out :=
  M.bind (destroy e) fun _ => M.pure ⟨some x, if clear then none else some e.self, none⟩

/-- The encryption of nip47.c:513-517 and nip51.c:541-556, and the content made from it; `tmp` is the plain text. -/
def secretStep (A : Alloc) (tmp : Option Nat) (r : Res Bytes) (v : Event) (e : HEv) : M (Option Err × Event × HEv) :=
  match r with
  | .ub => fun _ => none
  | .err x => M.bind (free tmp) fun _ => M.pure (some x, v, e)
  | .ok ct =>
    M.bind (alloc A (.str ct)) fun c =>
    match c with
    | none => M.bind (free tmp) fun _ => M.pure (some .memory, v, e)
    | some c =>
      M.bind (free tmp) fun _ =>
      M.bind (setText A e ct) fun q =>
      M.bind (free (some c)) fun _ => M.pure (q.1, { v with content := if q.1 = none then some ct else none }, q.2)

/-- One step: the status, the values and the blocks. -/
def step (A : Alloc) (cfg : Option Config.Config) (grow : Event → List Bytes → Bool) (v : Event) (e : HEv) :
    Op → M (Option Err × Event × HEv)
  | .text t => M.bind (setText A e t) fun q => M.pure (q.1, { v with content := if q.1 = none then some t else none }, q.2)
  | .tag vs => addTag A cfg (grow v vs) v vs e
  | .ownTag vs =>
      M.bind (alloc A blob) fun t =>
      match t with
      | none => M.pure (some .memory, v, e)
      | some t => M.bind (addTag A cfg (grow v vs) v vs e) fun q => M.bind (free (some t)) fun _ => M.pure q
  | .secret false r => secretStep A none r v e
  | .secret true r =>
      M.bind (alloc A blob) fun t =>
      match t with
      | none => M.pure (some .memory, v, e)
      | some t => secretStep A (some t) r v e
  | .hash f =>
      M.bind (alloc A blob) fun t =>
      match t with
      | none => M.pure (some .memory, v, e)
      | some t =>
        match f v with
        | .ub => fun _ => none
        | .err x => M.bind (free (some t)) fun _ => M.pure (some x, v, e)
        | .ok w => M.bind (free (some t)) fun _ => M.pure (none, w, e)

/-- The steps one after the other; the first that fails ends the call. -/
def run (A : Alloc) (cfg : Option Config.Config) (grow : Event → List Bytes → Bool) (clear : Bool) : Event → HEv → List Op → M Out
  | v, e, [] => M.pure ⟨none, some e.self, some (v, e)⟩
  | v, e, o :: os =>
      M.bind (step A cfg grow v e o) fun q =>
      match q.1 with
      | some x => giveUp clear q.2.2 x
      | none => run A cfg grow clear q.2.1 q.2.2 os

/-- Creating an event of the values `v` and filling it. -/
def build (A : Alloc) (cfg : Option Config.Config) (grow : Event → List Bytes → Bool) (clear : Bool) (v : Event) (os : List Op) : M Out :=
  M.bind (createInto A) fun r =>
  match r.1 with
  | none => M.pure ⟨some .memory, r.2, none⟩
  | some e => run A cfg grow clear v e os

/-- A call refused before anything is done; the pointer keeps the value `old`. -/
def refuse (old : Option Nat) (x : Err) : M Out := M.pure ⟨some x, old, none⟩

/-- nip18.c:36-106 `nostr_repost_create`; `old` is what `*event` was. -/
def repost (A : Alloc) (cfg : Option Config.Config) (grow : Event → List Bytes → Bool) (old : Option Nat) (now : Int)
    (id pubkey relay : Bytes) (kind : Nat) (d json : Option Bytes) : M Out :=
  if Nip51.hex64 id = false ∨ Nip51.hex64 pubkey = false then refuse old .invalidParam
  else build A cfg grow true { zero with createdAt := now, kind := if kind = 1 then 6 else 16 }
    ([.text (json.getD []), .tag [c!"e", id, relay], .tag [c!"p", pubkey]] ++
      (if kind = 1 then [] else [.tag [c!"k", Num.decNat kind]]) ++
      d.toList.map fun d => .ownTag [c!"a", Num.decNat kind ++ c!":" ++ pubkey ++ c!":" ++ d])

/-- nip25.c:34-82 `nostr_reaction_create`. -/
def reaction (A : Alloc) (cfg : Option Config.Config) (grow : Event → List Bytes → Bool) (old : Option Nat) (now : Int)
    (content : Option Bytes) (id pubkey : Bytes) (relay : Option Bytes) (kind : Nat) : M Out :=
  if Nip51.hex64 id = false ∨ Nip51.hex64 pubkey = false then refuse old .invalidParam
  else build A cfg grow true { zero with createdAt := now, kind := 7 }
    ([.text (content.getD (c!"+")), .tag [c!"e", id, relay.getD [], pubkey], .tag ([c!"p", pubkey] ++ relay.toList)] ++
      if kind > 0 then [.tag [c!"k", Num.decNat kind]] else [])

/-- nip65.c:143-182 `nostr_relay_list_to_event`. -/
def relayList (A : Alloc) (cfg : Option Config.Config) (grow : Event → List Bytes → Bool) (now : Int) (l : Nip65.Lst) : M Out :=
  build A cfg grow true { zero with kind := 10002, createdAt := now } (.text [] :: l.entries.map fun x => .tag (Nip65.entryTag x))

/-- nip51.c:464-570 `nostr_list_to_event`. -/
def list (A : Alloc) (N : Nip44.Nc) (B : Nip44.B64) (cfg : Option Config.Config) (grow : Event → List Bytes → Bool) (old : Option Nat)
    (now : Int) (nonce : Option Bytes) (keys : Option Nip51.Keys) (l : Nip51.Lst) : M Out :=
  if l.items.any (·.priv) = true ∧ keys = none then refuse old .invalidParam
  else build A cfg grow true { zero with kind := l.kind, createdAt := now }
    ((Nip51.headTags l ++ (l.items.filter fun it => !it.priv).map Nip51.itemTag).map .tag ++
      match keys with
      | some k =>
          if l.items.any (·.priv) then
            [.secret true (Nip51.privateText l.items >>= fun t => Nip44.encrypt N B cfg nonce k.sk k.pk t)]
          else [.text []]
      | none => [.text []])

/-- zap.c:45-110 `nostr_zap_create_request`. -/
def zapRequest (A : Alloc) (cfg : Option Config.Config) (grow : Event → List Bytes → Bool) (old : Option Nat) (now : Int) (amount : Nat)
    (recipient : Bytes) (lnurl content : Option Bytes) (relays : List Bytes) : M Out :=
  if relays = [] then refuse old .invalidParam
  else build A cfg grow false { zero with createdAt := now, kind := 9734 }
    (((content.filter (· ≠ [])).toList.map .text) ++ [.tag (Zap.relayTag relays), .tag [c!"amount", Num.decNat amount]] ++
      (lnurl.toList.map fun u => .tag [c!"lnurl", u]) ++ [.tag [c!"p", Hex.hexEncode recipient]])

/-- nip47.c:415-554 `nostr_nip47_create_request_event` with NIP-44. The client's key is derived once the event exists
(lines 431-475). -/
def walletRequest (A : Alloc) (E : Nip47.Env) (grow : Event → List Bytes → Bool) (now : Int) (nonce aux : Option Bytes)
    (sk wallet method paramsJson : Bytes) : M Out :=
  M.bind (createInto A) fun r =>
  match r.1 with
  | none => M.pure ⟨some .memory, r.2, none⟩
  | some e =>
    match E.crypto.pubOf sk with
    | none => giveUp true e .invalidKey
    | some pk => run A E.cfg grow true { zero with kind := 23194, createdAt := now, pubkey := pk } e
        [.tag [c!"p", Hex.hexEncode wallet], .tag [c!"encryption", c!"nip44_v2"],
          .secret false (Nip47.payload method paramsJson >>= fun text => Nip44.encrypt E.nc E.b64 E.cfg nonce sk wallet text),
          .hash (computeId E.crypto E.build), .hash (sign E.crypto E.build aux sk)]

/-- nip46.c:123-152: the tag, whose outcome is ignored, the identifier and the signature. -/
def signResponse (A : Alloc) (E : Nip47.Env) (grow : Event → List Bytes → Bool) (aux : Option Bytes) (sk peer : Bytes) (v : Event) (e : HEv) :
    M Out :=
  M.bind (addTag A E.cfg (grow v [c!"p", Hex.hexEncode peer]) v [c!"p", Hex.hexEncode peer] e) fun q =>
  run A E.cfg grow true q.2.1 q.2.2 [.hash (computeId E.crypto E.build), .hash (sign E.crypto E.build aux sk)]

/-- nip46.c:73-152 `nostr_nip46_create_response`: the text of the response is a block (line 100) until it is encrypted, the
encrypted text one until it is the content (line 118). -/
def response (A : Alloc) (E : Nip47.Env) (r : Bytes → Json.Json) (grow : Event → List Bytes → Bool) (old : Option Nat) (now : Int)
    (nonce aux : Option Bytes) (p : Nip46.Response) (sk peer : Bytes) : M Out :=
  M.bind (alloc A blob) fun t =>
  match t with
  | none => refuse old .memory
  | some t =>
    match Nip44.encrypt E.nc E.b64 E.cfg nonce sk peer (Nip46.responseText r p) with
    | .ub => fun _ => none
    | .err x => M.bind (free (some t)) fun _ => refuse old x
    | .ok ct =>
      M.bind (alloc A (.str ct)) fun c =>
      match c with
      | none => M.bind (free (some t)) fun _ => refuse old .memory
      | some c =>
        M.bind (free (some t)) fun _ =>
        M.bind (createInto A) fun k =>
        match k.1 with
        | none => M.bind (free (some c)) fun _ => M.pure ⟨some .memory, k.2, none⟩
        | some e =>
          M.bind (setText A e ct) fun q =>
          M.bind (free (some c)) fun _ =>
          match q.1 with
          | some x => giveUp true q.2 x
          | none => signResponse A E grow aux sk peer { zero with kind := Nip46.kind46, createdAt := now, content := some ct } q.2

end Nostr.Own.Build
