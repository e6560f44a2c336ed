import Verif.Filter.Heap
import Verif.Own.Ev
import Verif.Msg.Model

/-! # Memory of client messages (src/relay_message.c)

The tree that `cJSON_Parse` makes is one block; so is a text that `cJSON_PrintUnformatted` returns. -/

namespace Nostr.Own.Msg
open Nostr Nostr.Heap Nostr.Event Nostr.Json Nostr.Filter Nostr.Filter.Own Nostr.Msg

/-- The array of filters of a message: its address and the filled elements. -/
structure HFilters where
  array : Option Nat
  items : List HFilter

/-- include/nostr_relay_protocol.h:150-185 `nostr_client_msg_t`. -/
inductive HMsg
  | unknown
  | event (e : Option Ev.HEv)
  | req (f : HFilters)
  | close
  | auth (e : Option Ev.HEv)
  | count (f : HFilters)

/-- relay_message.c:41-43, 54-56, 66-68, 269-271, 282-284: `nostr_filter_free` for every filled element of the array `a`. -/
def freeItems (a : Nat) : List HFilter → M Unit
  | [] => M.pure ()
  | f :: fs => M.bind (load a) fun _ => M.bind (freeFilter f) fun _ => freeItems a fs

/-- relay_filter.c:98-205 `nostr_filter_parse` with the tree it reads. On failure the code releases the tree before the filter. -/
def filterParse (A : Alloc) (real : Bytes → Int) (text : Bytes) : M (Option RelayErr × HFilter) :=
  match parse text with
  | none => M.pure (some .invalidJson, Filter.Own.zero)
  | some tree =>
    M.bind (alloc A Ev.blob) fun t =>
    match t with
    | none => M.pure (some .invalidJson, Filter.Own.zero)
    | some t =>
      M.bind (Filter.Own.parse A real tree) fun r => M.bind (free (some t)) fun _ => M.pure r

/-- relay_message.c:41-48, 54-61, 66-72: every filled element and the array are released. -/
def drop (a : Nat) (done : List HFilter) (x : Err) : M (Option Err × HFilters) :=
  M.bind (freeItems a done) fun _ => M.bind (free (some a)) fun _ => M.pure (some x, ⟨none, []⟩)

/-- relay_message.c:36-77: the loop. Validation (relay_message.c:63-64) only reads the filter; here it is applied to the values
the filter's blocks hold. -/
def filterLoop (A : Alloc) (P : Plat) (r : Bytes → Json) (a : Nat) : List HFilter → List Json → M (Option Err × HFilters)
  | done, [] => M.pure (none, ⟨some a, done⟩)
  | done, j :: js =>
      M.bind (alloc A (.str (reprint r j))) fun s =>
      match s with
      | none => drop a done (.relay .memory)
      | some s =>
        M.bind (filterParse A P.real (reprint r j)) fun f =>
        M.bind (free (some s)) fun _ =>
        match f.1 with
        | some e => drop a done (.relay e)
        | none =>
          match parseFilter P.real (reprint r j) (reprint r j).length >>= fun v => (validate v).1 with
          | .ub => fun _ => none
          | .err x => M.bind (load a) fun _ => M.bind (freeFilter f.2) fun _ => drop a done x
          | .ok _ => M.bind (load a) fun _ => filterLoop A P r a (done ++ [f.2]) js

/-- relay_message.c:16-80 `parse_filters`. -/
def parseFilters (A : Alloc) (P : Plat) (r : Bytes → Json) (js : List Json) : M (Option Err × HFilters) :=
  if js.length > 10 then M.pure (some (.relay .tooManyFilters), ⟨none, []⟩)
  else if js.length = 0 then M.pure (none, ⟨none, []⟩)
  else M.bind (alloc A Ev.blob) fun a =>
    match a with
    | none => M.pure (some (.relay .memory), ⟨none, []⟩)
    | some a => filterLoop A P r a [] js

/-- relay_message.c:112-128, 186-202: an embedded event. -/
def eventArg (A : Alloc) (P : Plat) (r : Bytes → Json) (cfg : Option Config.Config) (grow : Event → List Bytes → Bool) :
    List Json → M (Option Err × Option Ev.HEv)
  | [] => M.pure (some (.relay .missingField), none)
  | j :: _ =>
      M.bind (alloc A (.str (reprint r j))) fun s =>
      match s with
      | none => M.pure (some (.relay .memory), none)
      | some s =>
        M.bind (Ev.fromJson A P cfg grow (reprint r j)) fun e =>
        M.bind (free (some s)) fun _ =>
        match e.1 with
        | some _ => M.pure (some (.relay .invalidJson), none)
        | none => M.pure (none, e.2.2)

/-- relay_message.c:130, 155-162, 204, 229-236: the type is set only after everything else succeeded. -/
def finish {α : Type} (m : M (Option Err × α)) (f : α → HMsg) : M (Option Err × HMsg) :=
  M.bind m fun x => match x.1 with
    | some e => M.pure (some e, .unknown)
    | none => M.pure (none, f x.2)

/-- relay_message.c:91-242: after the tree has been made, without its release. -/
def ofRoot (A : Alloc) (P : Plat) (r : Bytes → Json) (cfg : Option Config.Config) (grow : Event → List Bytes → Bool) (root : Json) :
    M (Option Err × HMsg) :=
  match asArr root with
  | none => M.pure (some (.relay .invalidJson), .unknown)
  | some [] => M.pure (some (.relay .invalidJson), .unknown)
  | some (h :: args) => match asStr h with
      | none => M.pure (some (.relay .invalidJson), .unknown)
      | some t =>
          if t = c!"EVENT" then finish (eventArg A P r cfg grow args) .event
          else if t = c!"REQ" then
            match idArg args with
            | .ub => fun _ => none
            | .err x => M.pure (some x, .unknown)
            | .ok _ => finish (parseFilters A P r args.tail) .req
          else if t = c!"CLOSE" then
            match idArg args with
            | .ub => fun _ => none
            | .err x => M.pure (some x, .unknown)
            | .ok _ => M.pure (none, .close)
          else if t = c!"AUTH" then finish (eventArg A P r cfg grow args) .auth
          else if t = c!"COUNT" then
            match idArg args with
            | .ub => fun _ => none
            | .err x => M.pure (some x, .unknown)
            | .ok _ => finish (parseFilters A P r args.tail) .count
          else M.pure (some (.relay .unknownMessageType), .unknown)

/-- relay_message.c:82-244 `nostr_client_msg_parse`; every path releases the tree at its end. -/
def clientParse (A : Alloc) (P : Plat) (r : Bytes → Json) (cfg : Option Config.Config) (grow : Event → List Bytes → Bool)
    (json : Bytes) (len : Nat) : M (Option Err × HMsg) :=
  match parse (if len > 0 then json.take len else json) with
  | none => M.pure (some (.relay .invalidJson), .unknown)
  | some root =>
    M.bind (alloc A Ev.blob) fun t =>
    match t with
    | none => M.pure (some (.relay .invalidJson), .unknown)
    | some t =>
      M.bind (ofRoot A P r cfg grow root) fun x => M.bind (free (some t)) fun _ => M.pure x

/-- relay_message.c:267-273, 280-286. -/
def freeFilters (f : HFilters) : M Unit :=
  match f.array with
  | none => M.pure ()
  | some a => M.bind (freeItems a f.items) fun _ => free (some a)

/-- relay_message.c:262-264, 275-277. -/
def freeEvent (e : Option Ev.HEv) : M Unit :=
  match e with
  | none => M.pure ()
  | some e => Ev.destroy e

/-- relay_message.c:258-295 `nostr_client_msg_free`: the message afterwards is all zeros; type 0 is an event (NULL). -/
def msgFree (m : HMsg) : M HMsg :=
  match m with
  | .event e => M.bind (freeEvent e) fun _ => M.pure (.event none)
  | .req f => M.bind (freeFilters f) fun _ => M.pure (.event none)
  | .auth e => M.bind (freeEvent e) fun _ => M.pure (.event none)
  | .count f => M.bind (freeFilters f) fun _ => M.pure (.event none)
  | .close => M.pure (.event none)
  | .unknown => M.pure (.event none)

end Nostr.Own.Msg
