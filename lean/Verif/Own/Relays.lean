import Verif.Heap
import Verif.Own.Conn
import Verif.Own.Ev
import Verif.Nip65.Model

/-!
# Memory of a relay list (src/nip65.c)

`Verif/Nip65` models the values of a relay list. This file models which blocks a list consists of: the structure, the
array of entries and one text per entry.
-/

namespace Nostr.Own.Relays
open Nostr Nostr.Heap Nostr.Nip65

/-- include/nostr.h:1343-1353 `nostr_relay_list`, `nostr_relay_list_entry`: the blocks. The block `arr` holds the
pointers to the URLs; the flags of the entries in use are kept here, so their number is the field `count`. -/
structure HList where
  self : Nat
  arr : Nat
  flags : List (Bool × Bool)
  cap : Nat
  deriving DecidableEq, Repr

/-- nip65.c:20-42 `nostr_relay_list_create`: `none` is `NOSTR_ERR_MEMORY`, with `*list` NULL. -/
def create (A : Alloc) : M (Option HList) :=
  M.bind (alloc A Ev.blob) fun e =>
  match e with
  | none => M.pure none
  | some e =>
    M.bind (alloc A (.ptrs (List.replicate 8 none))) fun a =>
    match a with
    | none => M.bind (free (some e)) fun _ => M.pure none
    | some a => M.pure (some ⟨e, a, [], 8⟩)

/-- nip65.c:44-55 `nostr_relay_list_free`. -/
def destroy (l : HList) : M Unit :=
  M.bind (freeStrings (some l.arr) l.flags.length) fun _ => free (some l.self)

/-- nip65.c:103-107: `strcmp` with the URLs from the entry `i` on, `n` of them. -/
def known (arr : Nat) (url : Bytes) : Nat → Nat → M Bool
  | 0, _ => M.pure false
  | n + 1, i => M.bind (loadPtr (some arr) i) fun p =>
      match p with
      | none => fun _ => none
      | some p => M.bind (loadStr p) fun s => if s = url then M.pure true else known arr url n (i + 1)

/-- nip65.c:109-129: making room. The sizes that do not fit `size_t` (lines 111, 118) cannot occur: the capacity is at
most 256. -/
def grow (A : Alloc) (l : HList) : M (Option Err × HList) :=
  if l.flags.length ≥ l.cap then
    if (if l.cap * 2 > 256 then 256 else l.cap * 2) ≤ l.flags.length then M.pure (some .memory, l)
    else M.bind (realloc A l.arr (if l.cap * 2 > 256 then 256 else l.cap * 2)) fun d =>
      match d with
      | none => M.pure (some .memory, l)
      | some d => M.pure (none, { l with arr := d, cap := if l.cap * 2 > 256 then 256 else l.cap * 2 })
  else M.pure (none, l)

/-- nip65.c:89-141 `nostr_relay_list_add`: the status and the list afterwards. `url` reads the argument from memory,
once to check it (lines 95-107) and once to copy it (line 131). -/
def add (A : Alloc) (l : HList) (url : M Bytes) (read write : Bool) : M (Option Err × HList) :=
  if read = false ∧ write = false then M.pure (some .invalidParam, l)
  else M.bind url fun s =>
    if validUrl s = false then M.pure (some .invalidParam, l)
    else if l.flags.length ≥ 256 then M.pure (some .invalidParam, l)
    else M.bind (known l.arr s l.flags.length 0) fun k =>
      if k then M.pure (some .invalidParam, l)
      else M.bind (grow A l) fun g =>
        match g.1 with
        | some e => M.pure (some e, g.2)
        | none =>
          M.bind url fun s =>
          M.bind (alloc A (.str s)) fun c =>
          M.bind (storePtr g.2.arr g.2.flags.length c) fun _ =>
          match c with
          | none => M.pure (some .memory, g.2)
          | some _ => M.pure (none, { g.2 with flags := g.2.flags ++ [(read, write)] })

/-- nip65.c:241-247 `nostr_relay_list_get`: the pointer in the field `url` of the entry; `none` if there is no entry. -/
def urlAt (l : HList) (i : Nat) : M (Option Nat) :=
  if i ≥ l.flags.length then M.pure none else loadPtr (some l.arr) i

/-- nip65.c:198-228: the loop over the tags. The event is read as a value. -/
def addTags (A : Alloc) : HList → List (List Bytes) → M (Option Err × Option HList)
  | l, [] => M.pure (none, some l)
  | l, t :: ts =>
      match readTag t with
      | none => addTags A l ts
      | some e => M.bind (add A l (M.pure e.url) e.read e.write) fun r =>
          if r.1 = some .memory then M.bind (destroy r.2) fun _ => M.pure (some .memory, none)
          else addTags A r.2 ts

/-- nip65.c:183-231 `nostr_relay_list_from_event`: the status and `*list`, which is `out` on entry. -/
def fromEvent (A : Alloc) (e : Event.Event) (out : Option HList) : M (Option Err × Option HList) :=
  if e.kind ≠ 10002 then M.pure (some .invalidEvent, out)
  else M.bind (create A) fun l =>
    match l with
    | none => M.pure (some .memory, none)
    | some l => addTags A l e.tags

/-- nip65.c:275-290: the URLs of the entries from `i` on whose flag is set are copied to the slots from `j` on; `n` is
`match_count`. On failure the copies made so far are released (lines 281-285). -/
def copyUrls (A : Alloc) (arr urls n : Nat) : List Bool → Nat → Nat → M Bool
  | [], _, _ => M.pure true
  | f :: fs, i, j =>
      if j ≥ n then M.pure true
      else if f then
        M.bind (loadPtr (some arr) i) fun p =>
        match p with
        | none => fun _ => none
        | some p =>
          M.bind (loadStr p) fun s =>
          M.bind (alloc A (.str s)) fun c =>
          M.bind (storePtr urls j c) fun _ =>
          match c with
          | none => M.bind (freePtrs (some urls) j 0) fun _ => M.bind (free (some urls)) fun _ => M.pure false
          | some _ => copyUrls A arr urls n fs (i + 1) (j + 1)
      else copyUrls A arr urls n fs (i + 1) j

/-- nip65.c:249-294 `get_relays_by_flag`, for `nostr_relay_list_get_read_relays` (`rd = true`) and
`nostr_relay_list_get_write_relays`: the status, `*urls` and `*count`, which is `out` on entry. -/
def byFlag (A : Alloc) (l : HList) (rd : Bool) (out : Nat) : M (Option Err × Option Nat × Nat) :=
  let fs := l.flags.map fun f => if rd then f.1 else f.2
  let n := (fs.filter id).length
  if n = 0 then M.pure (none, none, 0)
  else M.bind (alloc A (.ptrs (List.replicate n none))) fun u =>
    match u with
    | none => M.pure (some .memory, none, out)
    | some u => M.bind (copyUrls A l.arr u n fs 0 0) fun b =>
        if b then M.pure (none, some u, n) else M.pure (some .memory, none, out)

/-- nip65.c:308-317 `nostr_relay_list_free_urls`. -/
def freeUrls (urls : Option Nat) (count : Nat) : M Unit := freeStrings urls count

/-! ## A program that uses a list -/

/-- Where the URL that is passed comes from: a text of the caller, or the field `url` of the entry that
`nostr_relay_list_get` returned. -/
inductive Src
  | text (p : Nat)
  | entry (i : Nat)
  deriving DecidableEq, Repr

/-- A call of `nostr_relay_list_add`. -/
structure Call where
  src : Src
  read : Bool
  write : Bool
  deriving DecidableEq, Repr

/-- nip65.c:91: a NULL URL is refused. -/
def call (A : Alloc) (l : HList) (c : Call) : M (Option Err × HList) :=
  match c.src with
  | .text p => add A l (loadStr p) c.read c.write
  | .entry i => M.bind (urlAt l i) fun p =>
      match p with
      | none => M.pure (some .invalidParam, l)
      | some p => add A l (loadStr p) c.read c.write

/-- One call after the other. -/
def calls (A : Alloc) : HList → List Call → M (List (Option Err) × HList)
  | l, [] => M.pure ([], l)
  | l, c :: cs => M.bind (call A l c) fun r => M.bind (calls A r.2 cs) fun q => M.pure (r.1 :: q.1, q.2)

end Nostr.Own.Relays
