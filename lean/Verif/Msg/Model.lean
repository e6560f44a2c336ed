import Verif.Filter.Model
import Verif.Json.Reprint

/-!
# Model of client and relay messages (src/relay_message.c)

Builds with cJSON. `r` is the effect of printing a number that was stored as a `double`
(`Verif/Json/Reprint.lean`). Allocation failures are not modelled here.
-/

namespace Nostr.Msg
open Nostr Nostr.Event Nostr.Json Nostr.RelayProto Nostr.Filter

/-- include/nostr_relay_protocol.h `nostr_client_msg_t` after a successful parse. -/
inductive ClientMsg
  | event (e : Event)
  | req (subId : Bytes) (filters : List Filter)
  | close (subId : Bytes)
  | auth (e : Event)
  | count (queryId : Bytes) (filters : List Filter)
  deriving DecidableEq, Repr

/-- relay_message.c:36-77: the filter loop. -/
def filterLoop (P : Plat) (r : Bytes → Json) : List Json → Res (List Filter)
  | [] => .ok []
  | j :: js =>
      parseFilter P.real (reprint r j) (reprint r j).length >>= fun f =>
      (validate f).1 >>= fun _ =>
      filterLoop P r js >>= fun fs => .ok (f :: fs)

/-- relay_message.c:16-80 `parse_filters`, applied to the elements from `start_idx` on. -/
def parseFilters (P : Plat) (r : Bytes → Json) (js : List Json) : Res (List Filter) :=
  if js.length > 10 then .err (.relay .tooManyFilters)
  else if js.length = 0 then .ok []
  else filterLoop P r js

/-- relay_message.c:112-130 and 186-204: an embedded event; every error becomes `INVALID_JSON`. -/
def eventArg (P : Plat) (b : Build) (r : Bytes → Json) (cfg : Option Config.Config) : List Json → Res Event
  | [] => .err (.relay .missingField)
  | j :: _ => match fromJson P b cfg (reprint r j) with
      | .ok e => .ok e
      | .err _ => .err (.relay .invalidJson)
      | .ub => .ub

/-- relay_message.c:135-152, 164-181, 209-226: the subscription id; `strncpy(…, 64)`. -/
def idArg : List Json → Res Bytes
  | [] => .err (.relay .missingField)
  | j :: _ => match asStr j with
      | none => .err (.relay .invalidSubscriptionId)
      | some s => if validateSubId s then .ok (s.take 64) else .err (.relay .invalidSubscriptionId)

/-- relay_message.c:91-243: the part of `nostr_client_msg_parse` after parsing. -/
def ofRoot (P : Plat) (b : Build) (r : Bytes → Json) (cfg : Option Config.Config) (root : Json) : Res ClientMsg :=
  match asArr root with
  | none => .err (.relay .invalidJson)
  | some [] => .err (.relay .invalidJson)
  | some (h :: args) => match asStr h with
      | none => .err (.relay .invalidJson)
      | some t =>
          if t = c!"EVENT" then eventArg P b r cfg args >>= fun e => .ok (.event e)
          else if t = c!"REQ" then
            idArg args >>= fun id => parseFilters P r args.tail >>= fun fs => .ok (.req id fs)
          else if t = c!"CLOSE" then idArg args >>= fun id => .ok (.close id)
          else if t = c!"AUTH" then eventArg P b r cfg args >>= fun e => .ok (.auth e)
          else if t = c!"COUNT" then
            idArg args >>= fun id => parseFilters P r args.tail >>= fun fs => .ok (.count id fs)
          else .err (.relay .unknownMessageType)

/-- relay_message.c:82-244 `nostr_client_msg_parse` (build with cJSON). A positive length limits the text
that is read; lengths beyond the end of the text are not modelled. -/
def clientParse (P : Plat) (b : Build) (r : Bytes → Json) (cfg : Option Config.Config) (json : Bytes) (len : Nat) :
    Res ClientMsg :=
  match parse (if len > 0 then json.take len else json) with
  | none => .err (.relay .invalidJson)
  | some root => ofRoot P b r cfg root

/-! ## Relay messages -/

/-- include/nostr_relay_protocol.h `nostr_relay_msg_t`; strings are the contents of the fixed arrays,
`none` is a NULL event. -/
inductive RelayMsg
  | event (subId : Bytes) (e : Option Event)
  | ok (eventId : Bytes) (success : Bool) (message : Bytes)
  | eose (subId : Bytes)
  | closed (subId : Bytes) (message : Bytes)
  | notice (message : Bytes)
  | auth (challenge : Bytes)
  | count (queryId : Bytes) (count : Int) (approximate : Bool)
  deriving DecidableEq, Repr

/-- The optional `strncpy(dst, src, n); dst[n] = 0` of the builders; a NULL argument leaves "". -/
def field (n : Nat) (s : Option Bytes) : Bytes := (s.map (·.take n)).getD []

/-- relay_message.c:297-307 `nostr_relay_msg_event`. -/
def mkEvent (subId : Option Bytes) (e : Option Event) : RelayMsg := .event (field 64 subId) e

/-- relay_message.c:309-323 `nostr_relay_msg_ok`. -/
def mkOk (eventId : Option Bytes) (success : Bool) (message : Option Bytes) : RelayMsg :=
  .ok (field 64 eventId) success (field 255 message)

/-- relay_message.c:325-334 `nostr_relay_msg_eose`. -/
def mkEose (subId : Option Bytes) : RelayMsg := .eose (field 64 subId)

/-- relay_message.c:336-349 `nostr_relay_msg_closed`. -/
def mkClosed (subId message : Option Bytes) : RelayMsg := .closed (field 64 subId) (field 255 message)

/-- relay_message.c:351-360 `nostr_relay_msg_notice`. -/
def mkNotice (message : Option Bytes) : RelayMsg := .notice (field 255 message)

/-- relay_message.c:362-371 `nostr_relay_msg_auth`. -/
def mkAuth (challenge : Option Bytes) : RelayMsg := .auth (field 127 challenge)

/-- relay_message.c:373-384 `nostr_relay_msg_count`. -/
def mkCount (queryId : Option Bytes) (count : Int) (approximate : Bool) : RelayMsg :=
  .count (field 64 queryId) (if count < 0 then 0 else count) approximate

/-- `cJSON_CreateBool`. -/
def bool (b : Bool) : Json := if b then .tru else .fls

/-- relay_message.c:399-470: the array that is printed. -/
def msgTree (td : Int → Int) (fr : Int → Bytes) (r : Bytes → Json) : RelayMsg → Res Json
  | .event _ none => .err (.relay .missingField)
  | .event sub (some e) => match toJson (.cjson td fr) e with
      | .ok t => match parse t with
          | some j => .ok (.arr [.str (c!"EVENT"), .str sub, mapNum r j])
          | none => .err (.relay .memory)
      | .err _ => .err (.relay .memory)
      | .ub => .ub
  | .ok id s m => .ok (.arr [.str (c!"OK"), .str id, bool s, .str m])
  | .eose sub => .ok (.arr [.str (c!"EOSE"), .str sub])
  | .closed sub m => .ok (.arr [.str (c!"CLOSED"), .str sub, .str m])
  | .notice m => .ok (.arr [.str (c!"NOTICE"), .str m])
  | .auth ch => .ok (.arr [.str (c!"AUTH"), .str ch])
  | .count q n a =>
      .ok (.arr [.str (c!"COUNT"), .str q,
        .obj ((c!"count", .num (numTok td fr n)) :: if a then [(c!"approximate", .tru)] else [])])

/-- What `nostr_relay_msg_serialize` does: its result, the bytes written at the start of the buffer, and
the value stored in `*out_len`. -/
structure Out where
  res : Res Unit
  wrote : Bytes
  outLen : Option Nat
  deriving DecidableEq, Repr

/-- relay_message.c:388-491 `nostr_relay_msg_serialize`: line 486 copies the text and its NUL. -/
def serialize (td : Int → Int) (fr : Int → Bytes) (r : Bytes → Json) (m : RelayMsg) (bufSize : Nat) : Out :=
  if bufSize = 0 then ⟨.err (.relay .invalidJson), [], none⟩
  else match msgTree td fr r m with
    | .err e => ⟨.err e, [], none⟩
    | .ub => ⟨.ub, [], none⟩
    | .ok j =>
        let t := print false 0 j
        if t.length ≥ bufSize then ⟨.err (.relay .bufferTooSmall), [], some t.length⟩
        else ⟨.ok (), t ++ [0], some t.length⟩

/-! ## Getters -/

/-- relay_message.c:512-524 `nostr_client_msg_get_event`; `none` is a message of type unknown, the state
left by a failed parse. -/
def getEvent : Option ClientMsg → Option Event
  | some (.event e) => some e
  | some (.auth e) => some e
  | _ => none

/-- relay_message.c:526-540 `nostr_client_msg_get_subscription_id`. -/
def getSubId : Option ClientMsg → Option Bytes
  | some (.req s _) => some s
  | some (.close s) => some s
  | some (.count s _) => some s
  | _ => none

/-- relay_message.c:542-560 `nostr_client_msg_get_filters` with its count. -/
def getFilters : Option ClientMsg → List Filter
  | some (.req _ fs) => fs
  | some (.count _ fs) => fs
  | _ => []

end Nostr.Msg
