import Verif.Double.Model
import Verif.Msg.Model

/-!
# Numbers of texts converted to integers

`(int64_t) d`, `(uint64_t) d` and `(uint32_t) d` of a double outside the range of the type is undefined (C11 6.3.1.4). The models of the
readers elsewhere leave that open; here it is an outcome of its own. `valueint` is computed by cJSON, which looks at the range first.
-/

namespace Nostr.Double
open Nostr Nostr.Json Nostr.Event

/-- A number text converted to an integer type with the values `lo` to `hi`. -/
def convert (lo hi : Int) (tok : Bytes) : Res Int :=
  if lo ≤ int64 read tok ∧ int64 read tok ≤ hi then .ok (int64 read tok) else .ub

/-- `(int64_t) valuedouble` if the item is there and a number. -/
def convert64 (j : Option Json) : Res Unit :=
  match j.bind asNum with
  | none => .ok ()
  | some t => convert (-2 ^ 63) (2 ^ 63 - 1) t >>= fun _ => .ok ()

/-- event.c:456-591 `nostr_event_from_json`: id and key are looked at first, then the time is converted (500). -/
def readEvent (lax : Bool) (cfg : Option Config.Config) (s : Bytes) : Res Event :=
  match parse s with
  | none => .err .jsonParse
  | some root =>
      hexField (plat lax) root (c!"id") 32 zero.id >>= fun _ =>
      hexField (plat lax) root (c!"pubkey") 32 zero.pubkey >>= fun _ =>
      convert64 (get root (c!"created_at")) >>= fun _ => fromTree (plat lax) cfg root

/-- relay_filter.c:98-205 `nostr_filter_parse`: the lists are read first, then the times are converted (172, 177). -/
def readFilter (s : Bytes) : Res Filter.Filter :=
  match parse s with
  | none => .err (.relay .invalidJson)
  | some root =>
      Filter.parseStrings (get root (c!"ids")) >>= fun _ =>
      Filter.parseStrings (get root (c!"authors")) >>= fun _ =>
      Filter.parseInts read (get root (c!"kinds")) >>= fun _ =>
      Filter.parseStrings (get root (c!"#e")) >>= fun _ =>
      Filter.parseStrings (get root (c!"#p")) >>= fun _ =>
      Filter.parseGeneric (Filter.members root) >>= fun _ =>
      convert64 (get root (c!"since")) >>= fun _ =>
      convert64 (get root (c!"until")) >>= fun _ => Filter.ofTree read root

/-- nip47_commands.c:486-491: the block height of an info response; `none` leaves the variable alone. -/
def blockHeight (s : Bytes) : Res (Option Int) :=
  match parse s with
  | none => .err .invalidParam
  | some root => match (get root (c!"block_height")).bind asNum with
      | none => .ok none
      | some t => convert 0 (2 ^ 32 - 1) t >>= fun n => .ok (some n)

/-- relay_message.c:36-77: the filter loop. -/
def readFilters (r : Bytes → Json) : List Json → Res (List Filter.Filter)
  | [] => .ok []
  | j :: js =>
      readFilter (reprint r j) >>= fun f =>
      (Filter.validate f).1 >>= fun _ =>
      readFilters r js >>= fun fs => .ok (f :: fs)

/-- relay_message.c:112-130 and 186-204: an embedded event. -/
def readArg (lax : Bool) (r : Bytes → Json) (cfg : Option Config.Config) : List Json → Res Event
  | [] => .err (.relay .missingField)
  | j :: _ => match readEvent lax cfg (reprint r j) with
      | .ok e => .ok e
      | .err _ => .err (.relay .invalidJson)
      | .ub => .ub

/-- relay_message.c:16-80 `parse_filters`. -/
def readList (r : Bytes → Json) (js : List Json) : Res (List Filter.Filter) :=
  if js.length > 10 then .err (.relay .tooManyFilters) else if js.length = 0 then .ok [] else readFilters r js

/-- relay_message.c:82-244 `nostr_client_msg_parse`; `r` is the printing of numbers. -/
def readClient (lax : Bool) (r : Bytes → Json) (cfg : Option Config.Config) (s : Bytes) : Res Msg.ClientMsg :=
  match parse s with
  | some (.arr (.str t :: args)) =>
      if t = c!"EVENT" then readArg lax r cfg args >>= fun e => .ok (.event e)
      else if t = c!"REQ" then
        Msg.idArg args >>= fun id => readList r args.tail >>= fun fs => .ok (.req id fs)
      else if t = c!"CLOSE" then Msg.idArg args >>= fun id => .ok (.close id)
      else if t = c!"AUTH" then readArg lax r cfg args >>= fun e => .ok (.auth e)
      else if t = c!"COUNT" then
        Msg.idArg args >>= fun id => readList r args.tail >>= fun fs => .ok (.count id fs)
      else .err (.relay .unknownMessageType)
  | _ => .err (.relay .invalidJson)

end Nostr.Double
