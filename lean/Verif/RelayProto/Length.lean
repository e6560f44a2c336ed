import Verif.RelayProto.Model
import Verif.Filter.Model
import Verif.Msg.Model

/-!
# Model of the readers that are given a text and its length

The caller's array is a list of bytes, all there is from the pointer on; looking behind its end is undefined. What is made of the text
that is read is in `Verif/RelayProto/Model.lean`, `Verif/Filter/Model.lean` and `Verif/Msg/Model.lean`.
-/

namespace Nostr.Length
open Nostr Nostr.Event

/-- `cJSON_Parse(json)`: `strlen` looks for the end of the text. -/
def text (buf : Bytes) : Res Bytes := if 0 ∈ buf then .ok (Json.cstr buf) else .ub

/-- relay_filter.c:106, relay_message.c:91: with a positive length `cJSON_ParseWithLength`, which looks at that many bytes. -/
def upTo (buf : Bytes) (len : Nat) : Res Bytes :=
  if len > 0 then if len ≤ buf.length then .ok (buf.take len) else .ub else text buf

/-- relay_protocol.c:289-311 `nostr_event_parse`: the length is not used (line 291). -/
def event (P : Plat) (b : Build) (cfg : Option Config.Config) (buf : Bytes) (_len : Nat) : Res Event :=
  text buf >>= fun s => RelayProto.parseEvent P b cfg s

/-- relay_filter.c:98-203 `nostr_filter_parse`. -/
def filter (real : Bytes → Int) (buf : Bytes) (len : Nat) : Res Filter.Filter :=
  upTo buf len >>= fun s => Filter.parseFilter real s 0

/-- relay_message.c:82-244 `nostr_client_msg_parse`. -/
def message (P : Plat) (b : Build) (r : Bytes → Json.Json) (cfg : Option Config.Config) (buf : Bytes) (len : Nat) : Res Msg.ClientMsg :=
  upTo buf len >>= fun s => Msg.clientParse P b r cfg s 0

end Nostr.Length
