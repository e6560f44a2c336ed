import Verif.Event.Model
import Verif.Nip51.Model
import Verif.Filter.Heap

/-!
# Relay lists (src/nip65.c)

Not modelled: NULL arguments.
-/

namespace Nostr.Nip65
open Nostr Nostr.Event Nostr.Heap

/-- include/nostr.h:1343-1347 `nostr_relay_list_entry`. -/
structure Entry where
  url : Bytes
  read : Bool
  write : Bool
  deriving DecidableEq, Repr

/-- include/nostr.h:1349-1353 `nostr_relay_list`; the length of `slots` is the capacity, empty slots are zeroed. -/
structure Lst where
  slots : List (Option Entry)
  count : Nat
  deriving DecidableEq, Repr

/-- nip65.c:20-41 `nostr_relay_list_create`, with memory. -/
def create : Lst := ⟨List.replicate 8 none, 0⟩

/-- nip65.c:56-87 `is_valid_relay_url`; the argument is the C string. -/
def validUrl (url : Bytes) : Bool :=
  if url.length = 0 ∨ url.length > 2048 then false
  else
    let n := if (c!"wss://").isPrefixOf url then 6 else if (c!"ws://").isPrefixOf url then 5 else 0
    if n = 0 then false
    else if url.length ≤ n then false
    else !([0x2f, 0x3a, 0x3f, 0x23, 0x40, 0x20] : List UInt8).contains (url.getD n 0)

/-- nip65.c:103-107: `strcmp` with each entry; an entry without URL would be undefined behaviour. -/
def known (url : Bytes) : List (Option Entry) → Nat → Res Bool
  | _, 0 => .ok false
  | some e :: r, n + 1 => if e.url = url then .ok true else known url r n
  | _, _ + 1 => .ub

/-- nip65.c:109-127: growing the array; `mem` says whether `realloc` succeeds. -/
def ensure (mem : Bool) (l : Lst) : Res Lst :=
  if l.count ≥ l.slots.length then
    let n := if l.slots.length * 2 > 256 then 256 else l.slots.length * 2
    if n ≤ l.count then .err .memory
    else if mem = false then .err .memory
    else .ok { l with slots := l.slots ++ List.replicate (n - l.slots.length) none }
  else .ok l

/-- nip65.c:89-141 `nostr_relay_list_add`: the list afterwards and the return value; `dup` says whether `strdup` succeeds. -/
def add (mem dup : Bool) (l : Lst) (e : Entry) : Res (Lst × Option Err) :=
  if e.read = false ∧ e.write = false then .ok (l, some .invalidParam)
  else if validUrl e.url = false then .ok (l, some .invalidParam)
  else if l.count ≥ 256 then .ok (l, some .invalidParam)
  else known e.url l.slots l.count >>= fun k =>
    if k then .ok (l, some .invalidParam)
    else match ensure mem l with
      | .ok l1 =>
          if dup = false then .ok (l1, some .memory)
          else if l1.count < l1.slots.length then .ok ({ l1 with slots := l1.slots.set l1.count (some e), count := l1.count + 1 }, none)
          else .ub
      | .err x => .ok (l, some x)
      | .ub => .ub

/-- The entries in use. -/
def Lst.entries (l : Lst) : List Entry := (l.slots.take l.count).filterMap id

/-- nip65.c:241-247 `nostr_relay_list_get`. -/
def get (l : Lst) (i : Nat) : Res (Option Entry) :=
  if i ≥ l.count then .ok none
  else match l.slots[i]? with
    | some (some e) => .ok (some e)
    | _ => .ub

/-- nip65.c:163-172: the tag of an entry. -/
def entryTag (e : Entry) : List Bytes :=
  if !e.read || !e.write then [c!"r", e.url, if e.read then c!"read" else c!"write"] else [c!"r", e.url]

/-- nip65.c:143-182 `nostr_relay_list_to_event`, with memory; `now` is the clock. -/
def toEvent (cfg : Option Config.Config) (now : Int) (l : Lst) : Res Event :=
  Nip51.addAll cfg { zero with kind := 10002, createdAt := now, content := some [] } (l.entries.map entryTag)

/-- nip65.c:198-222: what a tag says, if anything. -/
def readTag : List Bytes → Option Entry
  | n :: url :: r =>
      if n ≠ c!"r" then none
      else match r with
        | m :: _ => if m = c!"read" then some ⟨url, true, false⟩ else if m = c!"write" then some ⟨url, false, true⟩ else some ⟨url, true, true⟩
        | [] => some ⟨url, true, true⟩
  | _ => none

/-- nip65.c:198-230: the tags one after the other; only lack of memory ends the loop. `mem i` says whether memory for
growing and for the text is available at the `i`-th tag. -/
def readTags (mem : Nat → Bool × Bool) (i : Nat) (l : Lst) : List (List Bytes) → Res Lst
  | [] => .ok l
  | t :: ts =>
      match readTag t with
      | none => readTags mem (i + 1) l ts
      | some e => add (mem i).1 (mem i).2 l e >>= fun q =>
          if q.2 = some .memory then .err .memory else readTags mem (i + 1) q.1 ts

/-- nip65.c:183-231 `nostr_relay_list_from_event`. -/
def fromEvent (mem : Nat → Bool × Bool) (e : Event) : Res Lst :=
  if e.kind ≠ 10002 then .err .invalidEvent else readTags mem 0 create e.tags

/-- nip65.c:275-290: the copying loop, `n` matches in all, `j` of them copied; `false` when `strdup` failed (the copies
and the array are then freed). -/
def viewLoop (A : Alloc) (d n : Nat) (f : Entry → Bool) : List Entry → Nat → M Bool
  | [], _ => M.pure true
  | e :: es, j =>
      if j < n then
        if f e then
          M.bind (alloc A (.str e.url)) fun c =>
          match c with
          | none => M.bind (freeStrings (some d) j) fun _ => M.pure false
          | some c => M.bind (storePtr d j (some c)) fun _ => viewLoop A d n f es (j + 1)
        else viewLoop A d n f es j
      else M.pure true

/-- nip65.c:249-294 `get_relays_by_flag`: return value, array and count; `out` is what the count holds on entry. The
entries of the list are read as values. -/
def view (A : Alloc) (l : List Entry) (forRead : Bool) (out : Nat) : M (Option Err × Option Nat × Nat) :=
  let f := fun e : Entry => if forRead then e.read else e.write
  let n := (l.filter f).length
  if n = 0 then M.pure (none, none, 0)
  else
    M.bind (alloc A (.ptrs (List.replicate n none))) fun d =>
    match d with
    | none => M.pure (some .memory, none, out)
    | some d => M.bind (viewLoop A d n f l 0) fun ok =>
        if ok then M.pure (none, some d, n) else M.pure (some .memory, none, out)

/-- nip65.c:308-317 `nostr_relay_list_free_urls`. -/
def freeUrls (p : Option Nat) (n : Nat) : M Unit := freeStrings p n

end Nostr.Nip65
