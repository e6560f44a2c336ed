import Verif.Heap
import Verif.Own.Ev
import Verif.Nip51.Model

/-!
# Memory of a list (src/nip51.c)

`Verif/Nip51` models the values of a list. This file models which blocks a list consists of: the structure, the array of
items, up to four texts of the list and up to four texts of each item.
-/

namespace Nostr.Own.Lists
open Nostr Nostr.Heap Nostr.Nip51

/-- include/nostr.h:1512-1518 `nostr_list_item`: its texts. -/
structure HItem where
  type : Option Nat
  value : Option Nat
  hint : Option Nat
  pet : Option Nat
  priv : Bool
  deriving DecidableEq, Repr

/-- include/nostr.h:1520-1529 `nostr_list`: the blocks. The items in use are kept here, not in the block `arr`, so their
number is the field `item_count`; every access to the array checks that its block is live and has room (`touch`). -/
structure HList where
  self : Nat
  kind : Nat
  d : Option Nat
  title : Option Nat
  descr : Option Nat
  image : Option Nat
  arr : Nat
  items : List HItem
  cap : Nat
  deriving DecidableEq, Repr

/-- Access to the place `i` of an array with `n` places. -/
def touch (a i n : Nat) : M Unit := fun h => if (h.mem a).isSome ∧ i < n then some ((), h) else none

/-- nip51.c:112-121 `free_item`. -/
def freeItem (it : HItem) : M Unit :=
  M.bind (free it.type) fun _ => M.bind (free it.value) fun _ => M.bind (free it.hint) fun _ => free it.pet

/-- nip51.c:123-146 `nostr_list_create`: `none` is `NOSTR_ERR_MEMORY`, with `*list` NULL. -/
def create (A : Alloc) (kind : Nat) : M (Option HList) :=
  M.bind (alloc A Ev.blob) fun e =>
  match e with
  | none => M.pure none
  | some e =>
    M.bind (alloc A Ev.blob) fun a =>
    match a with
    | none => M.bind (free (some e)) fun _ => M.pure none
    | some a => M.pure (some ⟨e, kind, none, none, none, none, a, [], 8⟩)

/-- nip51.c:154-156: the items from the place `i` on. -/
def freeItems (a n : Nat) : Nat → List HItem → M Unit
  | _, [] => M.pure ()
  | i, it :: l => M.bind (touch a i n) fun _ => M.bind (freeItem it) fun _ => freeItems a n (i + 1) l

/-- nip51.c:148-163 `nostr_list_free`. -/
def destroy (l : HList) : M Unit :=
  M.bind (freeItems l.arr l.cap 0 l.items) fun _ =>
  M.bind (free (some l.arr)) fun _ =>
  M.bind (free l.d) fun _ => M.bind (free l.title) fun _ => M.bind (free l.descr) fun _ => M.bind (free l.image) fun _ =>
  free (some l.self)

/-- The four texts of a list. -/
inductive Field
  | d | title | descr | image
  deriving DecidableEq, Repr

/-- `list->…`. -/
def HList.field (l : HList) : Field → Option Nat
  | .d => l.d
  | .title => l.title
  | .descr => l.descr
  | .image => l.image

/-- `list->… = p`. -/
def HList.setField (l : HList) (f : Field) (p : Option Nat) : HList :=
  match f with
  | .d => { l with d := p }
  | .title => { l with title := p }
  | .descr => { l with descr := p }
  | .image => { l with image := p }

/-- `p ? strdup(p) : NULL`; the text is read when it is copied. -/
def dup (A : Alloc) (rd : Option (M Bytes)) : M (Option Nat) :=
  match rd with
  | none => M.pure none
  | some r => M.bind r fun s => alloc A (.str s)

/-- nip51.c:165-176 `set_string_field`, 178-200 the setters: the status and the list afterwards. -/
def set (A : Alloc) (l : HList) (f : Field) (rd : Option (M Bytes)) : M (Option Err × HList) :=
  M.bind (free (l.field f)) fun _ =>
  M.bind (dup A rd) fun p =>
  M.pure (if rd.isSome ∧ p = none then some .memory else none, l.setField f p)

/-- nip51.c:202-229 `ensure_capacity`. The sizes that do not fit `size_t` (lines 206, 215) cannot occur: the capacity is
at most 4096. -/
def ensure (A : Alloc) (l : HList) : M (Option Err × HList) :=
  if l.items.length ≥ l.cap then
    if min (l.cap * 2) 4096 ≤ l.items.length then M.pure (some .memory, l)
    else M.bind (Ev.resize A (some l.arr)) fun a =>
      match a with
      | none => M.pure (some .memory, l)
      | some a => M.pure (none, { l with arr := a, cap := min (l.cap * 2) 4096 })
  else M.pure (none, l)

/-- nip51.c:231-260 `add_item`: the status and the list afterwards. -/
def addItem (A : Alloc) (l : HList) (type value hint pet : Option (M Bytes)) (priv : Bool) : M (Option Err × HList) :=
  M.bind (ensure A l) fun r =>
  match r.1 with
  | some e => M.pure (some e, r.2)
  | none =>
    M.bind (touch r.2.arr r.2.items.length r.2.cap) fun _ =>
    M.bind (dup A type) fun t => M.bind (dup A value) fun v => M.bind (dup A hint) fun h => M.bind (dup A pet) fun p =>
    if t = none ∨ v = none ∨ (hint.isSome ∧ h = none) ∨ (pet.isSome ∧ p = none) then
      M.bind (freeItem ⟨t, v, h, p, priv⟩) fun _ => M.pure (some .memory, r.2)
    else M.pure (none, { r.2 with items := r.2.items ++ [⟨t, v, h, p, priv⟩] })

/-- nip51.c:347-364 `nostr_list_remove`: the status and the list afterwards. -/
def remove (l : HList) (i : Nat) : M (Option Err × HList) :=
  match l.items[i]? with
  | none => M.pure (some .invalidParam, l)
  | some it =>
    M.bind (touch l.arr i l.cap) fun _ =>
    M.bind (freeItem it) fun _ => M.pure (none, { l with items := l.items.eraseIdx i })

/-! ## Reading a list from an event -/

/-- nip51.c:764-799: one tag. The event is read as a value. -/
def readTag (A : Alloc) (l : HList) (t : List Bytes) : M (Option Err × HList) :=
  match t with
  | n :: v :: r =>
      if n = c!"d" then set A l .d (some (M.pure v))
      else if n = c!"title" then set A l .title (some (M.pure v))
      else if n = c!"description" then set A l .descr (some (M.pure v))
      else if n = c!"image" then set A l .image (some (M.pure v))
      else addItem A l (some (M.pure n)) (some (M.pure v)) (r.head?.map M.pure) ((r.drop 1).head?.map M.pure) false
  | _ => M.pure (none, l)

/-- nip51.c:764-799: the tags, up to the first error. -/
def readTags (A : Alloc) : HList → List (List Bytes) → M (Option Err × HList)
  | l, [] => M.pure (none, l)
  | l, t :: ts => M.bind (readTag A l t) fun r =>
      match r.1 with
      | some e => M.pure (some e, r.2)
      | none => readTags A r.2 ts

/-- nip51.c:625-747: the private items; what is read does not depend on memory and is taken from `Nip51.fields`,
`Nip51.fromFields`. -/
def parseItems (A : Alloc) : Nat → HList → Bytes → M (Option Err × HList)
  | 0, l, _ => M.pure (some .jsonParse, l)
  | fuel + 1, l, p =>
      if p = [] then M.pure (none, l)
      else match skipWs p with
        | [] => M.pure (some .jsonParse, l)
        | c :: r =>
            if c = 0x5d then M.pure (none, l)
            else if c ≠ 0x5b then M.pure (some .jsonParse, l)
            else match fields (r.length + 1) 0 [] r with
              | none => M.pure (some .jsonParse, l)
              | some (fs, r1) =>
                  match fromFields fs with
                  | none => parseItems A fuel l (if r1.head? = some 0x5d then r1.drop 1 else r1)
                  | some it =>
                    M.bind (addItem A l (some (M.pure it.type)) (some (M.pure it.value)) (it.hint.map M.pure) (it.pet.map M.pure) it.priv) fun q =>
                      match q.1 with
                      | some e => M.pure (some e, q.2)
                      | none => parseItems A fuel q.2 (if r1.head? = some 0x5d then r1.drop 1 else r1)

/-- nip51.c:610-750 `parse_private_content`. -/
def parsePrivate (A : Alloc) (l : HList) (json : Bytes) : M (Option Err × HList) :=
  if json.length < 2 then M.pure (none, l)
  else match json.dropWhile (· ≠ 0x5b) with
    | [] => M.pure (some .jsonParse, l)
    | _ :: r => parseItems A (r.length + 1) l r

/-- nip51.c:801-825: the content, decrypted into a block that is released before the result is looked at. -/
def readContent (A : Alloc) (N : Nip44.Nc) (B : Nip44.B64) (cfg : Option Config.Config) (keys : Option Keys) (e : Event.Event) (l : HList) :
    M (Option Err × HList) :=
  match keys with
  | none => M.pure (none, l)
  | some k =>
    if e.text = [] then M.pure (none, l)
    else match Nip44.decrypt N B cfg k.sk k.pk e.text with
      | .ub => fun _ => none
      | .err x => M.pure (some x, l)
      | .ok t =>
        M.bind (alloc A (.str t)) fun c =>
        match c with
        | none => M.pure (some .memory, l)
        | some c => M.bind (parsePrivate A l (t.takeWhile (· ≠ 0))) fun r => M.bind (free (some c)) fun _ => M.pure r

/-- nip51.c:831-834: `cleanup`, or success. -/
def finish (r : Option Err × HList) : M (Option Err × Option HList) :=
  match r.1 with
  | none => M.pure (none, some r.2)
  | some e => M.bind (destroy r.2) fun _ => M.pure (some e, none)

/-- nip51.c:752-835 `nostr_list_from_event`: the status and `*list`. -/
def fromEvent (A : Alloc) (N : Nip44.Nc) (B : Nip44.B64) (cfg : Option Config.Config) (keys : Option Keys) (e : Event.Event) :
    M (Option Err × Option HList) :=
  M.bind (create A e.kind) fun l =>
  match l with
  | none => M.pure (some .memory, none)
  | some l =>
    M.bind (readTags A l e.tags) fun r =>
    match r.1 with
    | some _ => finish r
    | none => M.bind (readContent A N B cfg keys e r.2) fun r => finish r

/-! ## A program that uses a list -/

/-- The four texts of an item. -/
inductive Part
  | type | value | hint | pet
  deriving DecidableEq, Repr

/-- `item->…`. -/
def HItem.part (it : HItem) : Part → Option Nat
  | .type => it.type
  | .value => it.value
  | .hint => it.hint
  | .pet => it.pet

/-- Where a text that is passed comes from: NULL, a text of the caller, a text of the list, or a text of an item that
`nostr_list_get` returned. -/
inductive Src
  | null
  | text (p : Nat)
  | field (f : Field)
  | item (i : Nat) (part : Part)
  deriving DecidableEq, Repr

/-- The pointer. -/
def Src.ptr (l : HList) : Src → Option Nat
  | .null => none
  | .text p => some p
  | .field f => l.field f
  | .item i w => (l.items[i]?).bind fun it => it.part w

/-- The functions that add an item. -/
inductive Which
  | pubkey | event | hashtag | word | relay | reference | group | emoji
  deriving DecidableEq, Repr

/-- The arguments as values; a NULL that the function refuses is `none` (nip51.c:262-328). -/
def Which.args (w : Which) (a b c : Option Bytes) : Option Add :=
  match w, a, b, c with
  | _, none, _, _ => none
  | .pubkey, some a, b, c => some (.pubkey a b c)
  | .event, some a, b, _ => some (.event a b)
  | .hashtag, some a, _, _ => some (.hashtag a)
  | .word, some a, _, _ => some (.word a)
  | .relay, some a, _, _ => some (.relay a)
  | .reference, some a, b, _ => some (.reference a b)
  | .group, some a, some b, c => some (.group a b c)
  | .emoji, some a, some b, _ => some (.emoji a b)
  | .group, some _, none, _ => none
  | .emoji, some _, none, _ => none

/-- What a program may do with a list. -/
inductive Call
  | set (f : Field) (s : Src)
  | add (w : Which) (a b c : Src) (priv : Bool)
  | remove (i : Nat)

/-- Read a text, or NULL. -/
def look (p : Option Nat) : M (Option Bytes) :=
  match p with
  | none => M.pure none
  | some p => M.bind (loadStr p) fun s => M.pure (some s)

/-- The text of an argument, read when it is copied; `o` says whether the function uses that argument. -/
def later (o : Option Bytes) (p : Option Nat) : Option (M Bytes) :=
  match o, p with
  | some _, some p => some (loadStr p)
  | _, _ => none

/-- nip51.c:178-328, 347-364: one call. The adding functions check their arguments, then copy them. -/
def call (A : Alloc) (l : HList) : Call → M (Option Err × HList)
  | .set f s => set A l f ((s.ptr l).map loadStr)
  | .remove i => remove l i
  | .add w a b c priv =>
      M.bind (look (a.ptr l)) fun ta => M.bind (look (b.ptr l)) fun tb => M.bind (look (c.ptr l)) fun tc =>
      match (w.args ta tb tc).bind fun x => item x priv with
      | none => M.pure (some .invalidParam, l)
      | some it => addItem A l (some (M.pure it.type)) ((a.ptr l).map loadStr) (later it.hint (b.ptr l)) (later it.pet (c.ptr l)) priv

/-- One call after the other. -/
def calls (A : Alloc) : HList → List Call → M (List (Option Err) × HList)
  | l, [] => M.pure ([], l)
  | l, c :: cs => M.bind (call A l c) fun r => M.bind (calls A r.2 cs) fun q => M.pure (r.1 :: q.1, q.2)

end Nostr.Own.Lists
