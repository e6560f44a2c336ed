import Verif.Heap
import Verif.Event.Model

/-!
# Memory of an event (src/event.c)

`Verif/Arena` models the bytes behind the tags. This file models which blocks an event consists of: the structure, the
arena's structure, the arena's memory, the array of tags and the content.
-/

namespace Nostr.Own.Ev
open Nostr Nostr.Heap Nostr.Event Nostr.Json

/-- include/nostr.h:162-176 `nostr_event`, include/nostr.h:156-160 `nostr_tag_arena`: the blocks. -/
structure HEv where
  self : Nat
  content : Option Nat
  arena : Nat
  memory : Nat
  tags : Option Nat
  deriving DecidableEq, Repr

/-- A block whose contents are not modelled here. -/
def blob : Obj := .ptrs []

/-- `realloc` of such a block; `realloc(NULL, …)` is `malloc`. NULL leaves the old block; the new block may have the old
address. -/
def resize (A : Alloc) (p : Option Nat) : M (Option Nat) := fun h =>
  match p with
  | none => alloc A blob h
  | some a =>
      if (h.mem a).isSome then
        match A (upd h.mem a none) h.tick with
        | none => some (none, ⟨h.mem, h.tick + 1⟩)
        | some b => some (some b, ⟨upd (upd h.mem a none) b (some blob), h.tick + 1⟩)
      else none

/-- event.c:87-105 `nostr_event_create` with event.c:45-64 `tag_arena_create`; `none` is `NOSTR_ERR_MEMORY`. -/
def create (A : Alloc) : M (Option HEv) :=
  M.bind (alloc A blob) fun e =>
  match e with
  | none => M.pure none
  | some e =>
    M.bind (alloc A blob) fun a =>
    match a with
    | none => M.bind (free (some e)) fun _ => M.pure none
    | some a =>
      M.bind (alloc A blob) fun m =>
      match m with
      | none => M.bind (free (some a)) fun _ => M.bind (free (some e)) fun _ => M.pure none
      | some m => M.pure (some ⟨e, none, a, m, none⟩)

/-- event.c:107-117 `nostr_event_destroy` with event.c:66-73 `tag_arena_destroy`. -/
def destroy (e : HEv) : M Unit :=
  M.bind (free e.content) fun _ =>
  M.bind (free (some e.memory)) fun _ =>
  M.bind (free (some e.arena)) fun _ =>
  M.bind (free e.tags) fun _ => free (some e.self)

/-- event.c:119-132 `nostr_event_set_content` with the text at the address `p`: the status and the event afterwards. -/
def setContent (A : Alloc) (e : HEv) (p : Nat) : M (Option Err × HEv) :=
  M.bind (free e.content) fun _ =>
  M.bind (loadStr p) fun s =>
  M.bind (alloc A (.str s)) fun c =>
  M.pure (if c = none then some .memory else none, { e with content := c })

/-- event.c:193-197: one more place in the array of tags. -/
def addPlace (A : Alloc) (e : HEv) : M (Option Err × HEv) :=
  M.bind (resize A e.tags) fun t =>
  match t with
  | none => M.pure (some .memory, e)
  | some t => M.pure (none, { e with tags := some t })

/-- event.c:134-222 `nostr_event_add_tag` on an event with the values `v`: the status, the values and the blocks
afterwards. Whether the arena has to grow (event.c:161) is the argument `grow`. The sizes that do not fit
`size_t` (event.c:145-157, 166) are not modelled here; see `Verif/Arena`. -/
def addTag (A : Alloc) (cfg : Option Config.Config) (grow : Bool) (v : Event) (vs : List Bytes) (e : HEv) :
    M (Option Err × Event × HEv) :=
  match Event.addTag cfg v vs with
  | .ub => fun _ => none
  | .err x => M.pure (some x, v, e)
  | .ok w =>
    if grow then
      M.bind (resize A (some e.memory)) fun m =>
      match m with
      | none => M.pure (some .memory, v, e)
      | some m => M.bind (addPlace A { e with memory := m }) fun r => M.pure (r.1, if r.1 = none then w else v, r.2)
    else M.bind (addPlace A e) fun r => M.pure (r.1, if r.1 = none then w else v, r.2)

/-! ## Reading an event from JSON -/

/-- Every failure path of `nostr_event_from_json` once the event exists (e.g. event.c:480-485): the event and the tree
are released. -/
def fail (root : Nat) (e : HEv) (x : Err) : M (Option Err × Event × HEv) :=
  M.bind (destroy e) fun _ => M.bind (free (some root)) fun _ => M.pure (some x, zero, e)

/-- event.c:531-565: the loop over the tags, with a temporary array for every tag. -/
def addTags (A : Alloc) (cfg : Option Config.Config) (grow : Event → List Bytes → Bool) (root : Nat) :
    Event → HEv → List Json → M (Option Err × Event × HEv)
  | v, e, [] => M.pure (none, v, e)
  | v, e, j :: js =>
      match asArr j with
      | some (x :: xs) =>
          M.bind (alloc A blob) fun t =>
          match t with
          | none => fail root e .memory
          | some t =>
            M.bind (addTag A cfg (grow v (tagValues (x :: xs))) v (tagValues (x :: xs)) e) fun r =>
            M.bind (free (some t)) fun _ =>
            match r.1 with
            | some _ => fail root r.2.2 .memory
            | none => addTags A cfg grow root r.2.1 r.2.2 js
      | _ => addTags A cfg grow root v e js

/-- event.c:524-566: the tags. -/
def tagsField (A : Alloc) (cfg : Option Config.Config) (grow : Event → List Bytes → Bool) (tree : Json) (root : Nat)
    (v : Event) (e : HEv) : M (Option Err × Event × HEv) :=
  match (get tree (c!"tags")).bind asArr with
  | none => M.pure (none, v, e)
  | some l =>
      if cfg.any (fun c => decide (l.length > c.maxTags)) then fail root e .invalidParam
      else if l = [] then M.pure (none, v, e)
      else
        M.bind (alloc A blob) fun t =>
        match t with
        | none => fail root e .memory
        | some t => addTags A cfg grow root v { e with tags := some t } l

/-- event.c:508-522: the content. -/
def contentField (A : Alloc) (cfg : Option Config.Config) (tree : Json) (root : Nat) (v : Event) (e : HEv) :
    M (Option Err × Event × HEv) :=
  match (get tree (c!"content")).bind asStr with
  | none => M.pure (none, v, e)
  | some s =>
      if cfg.any (fun c => decide (s.length > c.maxContent)) then fail root e .invalidParam
      else M.bind (alloc A (.str s)) fun c =>
        match c with
        | none => fail root e .memory
        | some c => M.pure (none, { v with content := some s }, { e with content := some c })

/-- The next step, unless the one before has failed (and released everything). -/
def andThen (m : M (Option Err × Event × HEv)) (f : Event → HEv → M (Option Err × Event × HEv)) :
    M (Option Err × Event × HEv) :=
  M.bind m fun r => match r.1 with
    | some x => M.pure (some x, r.2)
    | none => f r.2.1 r.2.2

/-- One of the three hex fields, event.c:478-485, 487-494, 568-575. -/
def hexStep (P : Plat) (tree : Json) (key : Bytes) (n : Nat) (old : Bytes) (root : Nat) (put : Bytes → Event) (e : HEv) :
    M (Option Err × Event × HEv) :=
  match hexField P tree key n old with
  | .ub => fun _ => none
  | .err x => fail root e x
  | .ok b => M.pure (none, put b, e)

/-- event.c:478-578: the fields. -/
def fields (A : Alloc) (P : Plat) (cfg : Option Config.Config) (grow : Event → List Bytes → Bool) (tree : Json) (root : Nat)
    (e : HEv) : M (Option Err × Event × HEv) :=
  andThen (hexStep P tree (c!"id") 32 zero.id root (fun b => { zero with id := b }) e) fun v e =>
  andThen (hexStep P tree (c!"pubkey") 32 zero.pubkey root (fun b =>
    { v with pubkey := b, createdAt := (numFields P tree).1, kind := (numFields P tree).2 }) e) fun v e =>
  andThen (contentField A cfg tree root v e) fun v e =>
  andThen (tagsField A cfg grow tree root v e) fun v e =>
  hexStep P tree (c!"sig") 64 zero.sig root (fun b => { v with sig := b }) e

/-- event.c:456-579 `nostr_event_from_json`, in the build with cJSON. The tree that `cJSON_Parse` makes is one block here;
`cJSON_Parse` returns NULL when it runs out of memory as it does for a text that is not JSON. -/
def fromJson (A : Alloc) (P : Plat) (cfg : Option Config.Config) (grow : Event → List Bytes → Bool) (s : Bytes) :
    M (Option Err × Event × Option HEv) :=
  match parse s with
  | none => M.pure (some .jsonParse, zero, none)
  | some tree =>
    M.bind (alloc A blob) fun root =>
    match root with
    | none => M.pure (some .jsonParse, zero, none)
    | some root =>
      M.bind (create A) fun e =>
      match e with
      | none => M.bind (free (some root)) fun _ => M.pure (some .memory, zero, none)
      | some e =>
        M.bind (fields A P cfg grow tree root e) fun r =>
        match r.1 with
        | some x => M.pure (some x, zero, none)
        | none => M.bind (free (some root)) fun _ => M.pure (none, r.2.1, some r.2.2)

end Nostr.Own.Ev
