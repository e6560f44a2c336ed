import Verif.Event.Model

/-!
# Thread references (src/nip10.c)

Tag values are non-NULL (`nostr_event_add_tag` copies every value). Allocation succeeds. A buffer size of 0
for the relay hint stands for a NULL or empty buffer.
-/

namespace Nostr.Nip10
open Nostr Nostr.Event

/-- nip10.c:8-13 `e_tag_info` (the author field is never read again and left out). -/
structure Info where
  id : Bytes
  relay : Bytes
  marker : Bytes
  deriving DecidableEq, Repr

/-- nip10.c:28-49 `parse_e_tag`, with the copies bounded by 64, 255 and 15 bytes (lines 15-26). -/
def parseE : List Bytes → Option Info
  | name :: id :: rest =>
      if name = c!"e" then
        some ⟨id.take 64, (rest.getD 0 []).take 255, (rest.getD 1 []).take 15⟩
      else none
  | _ => none

/-- nip10.c:51-92 `collect_e_tags`; an empty result is NOT_FOUND. -/
def collect (tags : List (List Bytes)) : List Info := tags.filterMap parseE

/-- nip10.c:94-103 `copy_id_and_relay` after lines 113-115: the texts in the two output buffers. -/
def copyOut (i : Info) (idSize relaySize : Nat) : Bytes × Bytes :=
  (i.id.take (idSize - 1), if relaySize > 0 ∧ i.relay ≠ [] then i.relay.take (relaySize - 1) else [])

/-- nip10.c:105-145 `find_e_tag_by_marker`; `last` is `use_positional_fallback == 1`. -/
def findByMarker (e : Event) (marker : Bytes) (last : Bool) (idSize relaySize : Nat) : Res (Bytes × Bytes) :=
  if idSize < 65 then .err .invalidParam
  else match collect e.tags with
    | [] => .err .notFound
    | i :: is =>
        match (i :: is).find? (fun x => x.marker == marker) with
        | some x => .ok (copyOut x idSize relaySize)
        | none => .ok (copyOut (if last then (i :: is).getLast (by simp) else i) idSize relaySize)

/-- nip10.c:147-151 `nostr_event_get_root_id`. -/
def getRootId (e : Event) (idSize relaySize : Nat) : Res (Bytes × Bytes) :=
  findByMarker e (c!"root") false idSize relaySize

/-- nip10.c:153-157 `nostr_event_get_reply_id`. -/
def getReplyId (e : Event) (idSize relaySize : Nat) : Res (Bytes × Bytes) :=
  findByMarker e (c!"reply") true idSize relaySize

/-- nip10.c:159-173 `add_e_tag`. -/
def addE (cfg : Option Config.Config) (e : Event) (id : Bytes) (relay : Option Bytes) (marker : Bytes)
    (pubkey : Option Bytes) : Res Event :=
  addTag cfg e ([c!"e", id, relay.getD [], marker] ++ pubkey.toList)

/-- One of the two references passed to `nostr_event_add_reply_tags`. -/
structure Ref where
  id : Bytes
  relay : Option Bytes
  pubkey : Option Bytes
  deriving DecidableEq, Repr

/-- nip10.c:175-197 `nostr_event_add_reply_tags`; `none` is a NULL id. The event afterwards and the return
value (the first tag stays when the second one fails). -/
def addReplyTags (cfg : Option Config.Config) (e : Event) (root reply : Option Ref) : Event × Option Err :=
  if root = none ∧ reply = none then (e, some .invalidParam)
  else
    let r1 := match root with
      | some r => addE cfg e r.id r.relay (c!"root") r.pubkey
      | none => .ok e
    match r1 with
    | .ok e1 =>
        let r2 := match reply with
          | some r => addE cfg e1 r.id r.relay (c!"reply") r.pubkey
          | none => .ok e1
        match r2 with
        | .ok e2 => (e2, none)
        | .err x => (e1, some x)
        | .ub => (e1, some .memory)
    | .err x => (e, some x)
    | .ub => (e, some .memory)

/-- nip10.c:199-207 `nostr_event_add_mention_tag`. -/
def addMention (cfg : Option Config.Config) (e : Event) (pubkey : Bytes) (relay : Option Bytes) : Res Event :=
  addTag cfg e ([c!"p", pubkey] ++ relay.toList)

/-- nip10.c:209-222 `nostr_event_is_reply`. -/
def isReply (e : Event) : Bool :=
  match getReplyId e 65 0 with
  | .ok (id, _) => id ≠ []
  | _ => false

end Nostr.Nip10
