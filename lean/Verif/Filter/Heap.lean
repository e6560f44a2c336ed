import Verif.Heap
import Verif.Filter.Model

/-!
# Ownership in filters (src/relay_filter.c: parse, free, clone)

The struct `nostr_filter_t` with its pointers and counts, over the heap of `Verif/Heap.lean`.
-/

namespace Nostr.Filter.Own
open Nostr Nostr.Heap Nostr.Json

/-- include/nostr_relay_protocol.h:115-132 `nostr_filter_t`: every array is a pointer and a count. -/
structure HFilter where
  ids : Option Nat × Nat
  authors : Option Nat × Nat
  kinds : Option Nat × Nat
  eTags : Option Nat × Nat
  pTags : Option Nat × Nat
  generic : Option Nat × Nat
  since : Int
  until_ : Int
  limit : Int
  search : Option Nat
  deriving DecidableEq, Repr

/-- `memset(filter, 0, sizeof(nostr_filter_t))`. -/
def zero : HFilter := ⟨(none, 0), (none, 0), (none, 0), (none, 0), (none, 0), (none, 0), 0, 0, 0, none⟩

/-- relay_filter.c:254-261: the loop freeing the value lists of the generic tags from index `i` on. -/
def freeRecs (a : Nat) : Nat → Nat → M Unit
  | 0, _ => M.pure ()
  | n + 1, i => fun h =>
      match h.mem a with
      | some (.recs l) =>
          match l[i]? with
          | some r => M.bind (freeStrings r.2.1 r.2.2) (fun _ => freeRecs a n (i + 1)) h
          | none => none
      | _ => none

/-- relay_filter.c:253-263. -/
def freeGeneric (p : Option Nat) (n : Nat) : M Unit :=
  match p with
  | none => M.pure ()
  | some a => M.bind (freeRecs a n 0) fun _ => free (some a)

/-- relay_filter.c:219-268 `nostr_filter_free`; returns the struct as left behind. -/
def freeFilter (f : HFilter) : M HFilter :=
  M.bind (freeStrings f.ids.1 f.ids.2) fun _ =>
  M.bind (freeStrings f.authors.1 f.authors.2) fun _ =>
  M.bind (free f.kinds.1) fun _ =>
  M.bind (freeStrings f.eTags.1 f.eTags.2) fun _ =>
  M.bind (freeStrings f.pTags.1 f.pTags.2) fun _ =>
  M.bind (freeGeneric f.generic.1 f.generic.2) fun _ =>
  M.bind (free f.search) fun _ => M.pure zero

/-- relay_filter.c:616-626: the copying loop of `clone_string_array`, `n` entries from index `i` on; `false`
when `strdup` failed (the copies made so far, and the array, are then freed). -/
def cloneLoop (A : Alloc) (d : Nat) (src : Option Nat) : Nat → Nat → M Bool
  | 0, _ => M.pure true
  | n + 1, i =>
      M.bind (loadPtr src i) fun q =>
      M.bind (match q with | none => M.pure [] | some a => loadStr a) fun s =>
      M.bind (alloc A (.str s)) fun c =>
      match c with
      | none => M.bind (freeStrings (some d) i) fun _ => M.pure false
      | some c => M.bind (storePtr d i (some c)) fun _ => cloneLoop A d src n (i + 1)

/-- relay_filter.c:601-630 `clone_string_array`: status and the destination pointer and count. -/
def cloneStrings (A : Alloc) (src : Option Nat × Nat) : M (Option RelayErr × Option Nat × Nat) :=
  if src.2 = 0 then M.pure (none, none, 0)
  else if src.1 = none then M.pure (some .invalidJson, none, 0)
  else
    M.bind (alloc A (.ptrs (List.replicate src.2 none))) fun d =>
    match d with
    | none => M.pure (some .memory, none, 0)
    | some d => M.bind (cloneLoop A d src.1 src.2 0) fun ok =>
        if ok then M.pure (none, some d, src.2) else M.pure (some .memory, none, 0)

/-- relay_filter.c:658-666: the kinds. -/
def cloneInts (A : Alloc) (src : Option Nat × Nat) : M (Option RelayErr × Option Nat × Nat) :=
  if src.2 = 0 then M.pure (none, none, 0)
  else
    M.bind (alloc A (.ints (List.replicate src.2 0))) fun d =>
    match d with
    | none => M.pure (some .memory, none, 0)
    | some d => fun h =>
      match src.1.bind h.mem with
      | some (.ints l) =>
          if src.2 ≤ l.length then M.bind (store d (.ints (l.take src.2))) (fun _ => M.pure (none, some d, src.2)) h
          else none
      | _ => none

/-- relay_filter.c:681-691: the generic tags, `n` entries from index `i` on. The result is the status and the
number of entries completed. -/
def cloneRecs (A : Alloc) (d : Nat) (src : Option Nat) : Nat → Nat → M (Option RelayErr × Nat)
  | 0, i => M.pure (none, i)
  | n + 1, i => fun h =>
      match src.bind h.mem, h.mem d with
      | some (.recs l), some (.recs _) =>
          match l[i]? with
          | none => none
          | some r => M.bind (cloneStrings A r.2) (fun c => fun h' =>
              match h'.mem d with
              | some (.recs k) =>
                  if i < k.length then
                    M.bind (store d (.recs (k.set i (r.1, c.2)))) (fun _ =>
                      match c.1 with
                      | some e => M.pure (some e, i)
                      | none => cloneRecs A d src n (i + 1)) h'
                  else none
              | _ => none) h
      | _, _ => none

/-- relay_filter.c:674-693. -/
def cloneGeneric (A : Alloc) (src : Option Nat × Nat) : M (Option RelayErr × Option Nat × Nat) :=
  if src.2 = 0 then M.pure (none, none, 0)
  else
    M.bind (alloc A (.recs (List.replicate src.2 (0, none, 0)))) fun d =>
    match d with
    | none => M.pure (some .memory, none, 0)
    | some d => M.bind (cloneRecs A d src.1 src.2 0) fun r => M.pure (r.1, some d, r.2)

/-- relay_filter.c:706-708 `cleanup`. -/
def cleanup (e : RelayErr) (d : HFilter) : M (Option RelayErr × HFilter) :=
  M.bind (freeFilter d) fun z => M.pure (some e, z)

/-- relay_filter.c:699-705: the search text. -/
def cloneSearch (A : Alloc) (src : Option Nat) : M (Option RelayErr × Option Nat) :=
  match src with
  | none => M.pure (none, none)
  | some s => M.bind (loadStr s) fun t => M.bind (alloc A (.str t)) fun c =>
      match c with
      | none => M.pure (some .memory, none)
      | some c => M.pure (none, some c)

/-- relay_filter.c:639-646: the sanity checks on the source. -/
def badSource (s : HFilter) : Bool :=
  (decide (s.ids.2 > 0) && decide (s.ids.1 = none)) || (decide (s.authors.2 > 0) && decide (s.authors.1 = none)) ||
  (decide (s.kinds.2 > 0) && decide (s.kinds.1 = none)) || decide (s.kinds.2 > maxValues) ||
  (decide (s.eTags.2 > 0) && decide (s.eTags.1 = none)) || (decide (s.pTags.2 > 0) && decide (s.pTags.1 = none)) ||
  (decide (s.generic.2 > 0) && decide (s.generic.1 = none))

/-- relay_filter.c:632-710 `nostr_filter_clone`: status (`none` = OK) and the destination struct. -/
def clone (A : Alloc) (s : HFilter) : M (Option RelayErr × HFilter) :=
  if badSource s then M.pure (some .invalidJson, zero)
  else
    M.bind (cloneStrings A s.ids) fun r =>
    let d := { zero with ids := r.2 }
    match r.1 with
    | some e => cleanup e d
    | none =>
    M.bind (cloneStrings A s.authors) fun r =>
    let d := { d with authors := r.2 }
    match r.1 with
    | some e => cleanup e d
    | none =>
    M.bind (cloneInts A s.kinds) fun r =>
    let d := { d with kinds := r.2 }
    match r.1 with
    | some e => cleanup e d
    | none =>
    M.bind (cloneStrings A s.eTags) fun r =>
    let d := { d with eTags := r.2 }
    match r.1 with
    | some e => cleanup e d
    | none =>
    M.bind (cloneStrings A s.pTags) fun r =>
    let d := { d with pTags := r.2 }
    match r.1 with
    | some e => cleanup e d
    | none =>
    M.bind (cloneGeneric A s.generic) fun r =>
    let d := { d with generic := r.2 }
    match r.1 with
    | some e => cleanup e d
    | none =>
    M.bind (cloneSearch A s.search) fun r =>
    let d := { d with since := s.since, until_ := s.until_, limit := s.limit, search := r.2 }
    match r.1 with
    | some e => cleanup e d
    | none => M.pure (none, d)

/-! ## Parsing -/

/-- relay_filter.c:42-58: the loop of `parse_string_array` over the strings of the array (other elements are
skipped); `false` when `strdup` failed (everything allocated so far is then freed). -/
def fillLoop (A : Alloc) (d : Nat) : List Bytes → Nat → M Bool
  | [], _ => M.pure true
  | s :: ss, i =>
      M.bind (alloc A (.str s)) fun c =>
      match c with
      | none => M.bind (freeStrings (some d) i) fun _ => M.pure false
      | some c => M.bind (storePtr d i (some c)) fun _ => fillLoop A d ss (i + 1)

/-- relay_filter.c:18-61 `parse_string_array`; `out` is what the output pointer and count hold on entry. -/
def fillStrings (A : Alloc) (out : Option Nat × Nat) (j : Option Json) :
    M (Option RelayErr × Option Nat × Nat) :=
  match j.bind asArr with
  | none => M.pure (none, none, 0)
  | some l =>
      if l.length = 0 then M.pure (none, none, 0)
      else if l.length > maxValues then M.pure (some .invalidJson, out)
      else
        M.bind (alloc A (.ptrs (List.replicate l.length none))) fun d =>
        match d with
        | none => M.pure (some .memory, none, out.2)
        | some d => M.bind (fillLoop A d (l.filterMap asStr) 0) fun ok =>
            if ok then M.pure (none, some d, (l.filterMap asStr).length) else M.pure (some .memory, none, 0)

/-- relay_filter.c:63-96 `parse_int_array`. -/
def fillInts (A : Alloc) (real : Bytes → Int) (j : Option Json) : M (Option RelayErr × Option Nat × Nat) :=
  match j.bind asArr with
  | none => M.pure (none, none, 0)
  | some l =>
      if l.length = 0 then M.pure (none, none, 0)
      else if l.length > maxValues then M.pure (some .invalidJson, none, 0)
      else
        M.bind (alloc A (.ints ((l.filterMap asNum).map (valueint real) ++
          List.replicate (l.length - (l.filterMap asNum).length) 0))) fun d =>
        match d with
        | none => M.pure (some .memory, none, 0)
        | some d => M.pure (none, some d, (l.filterMap asNum).length)

/-- relay_filter.c:129-138: the members naming a generic tag. -/
def genericMembers (ms : List (Bytes × Json)) : List (UInt8 × Json) :=
  ms.filterMap fun kv => (genericLetter kv.1).map fun c => (c, kv.2)

/-- relay_filter.c:148-165: filling the generic tags from index `i` on. -/
def fillRecs (A : Alloc) (d : Nat) : List (UInt8 × Json) → Nat → M (Option RelayErr × Nat)
  | [], i => M.pure (none, i)
  | (c, v) :: ms, i => fun h =>
      match h.mem d with
      | some (.recs k) =>
          match k[i]? with
          | none => none
          | some r => M.bind (fillStrings A r.2 (some v)) (fun s => fun h' =>
              match h'.mem d with
              | some (.recs k) =>
                  M.bind (store d (.recs (k.set i (c, s.2)))) (fun _ =>
                    match s.1 with
                    | some e => M.pure (some e, i)
                    | none => fillRecs A d ms (i + 1)) h'
              | _ => none) h
      | _ => none

/-- relay_filter.c:140-168. -/
def fillGeneric (A : Alloc) (ms : List (UInt8 × Json)) : M (Option RelayErr × Option Nat × Nat) :=
  if ms.length = 0 then M.pure (none, none, 0)
  else
    M.bind (alloc A (.recs (List.replicate ms.length (0, none, 0)))) fun d =>
    match d with
    | none => M.pure (some .memory, none, 0)
    | some d => M.bind (fillRecs A d ms 0) fun r => M.pure (r.1, some d, r.2)

/-- relay_filter.c:185-196: the search text. -/
def fillSearch (A : Alloc) (j : Option Json) : M (Option RelayErr × Option Nat) :=
  match j.bind asStr with
  | none => M.pure (none, none)
  | some s =>
      if s.length > 65536 then M.pure (some .invalidJson, none)
      else M.bind (alloc A (.str s)) fun c =>
        match c with
        | none => M.pure (some .memory, none)
        | some c => M.pure (none, some c)

/-- relay_filter.c:111-204 `nostr_filter_parse` after the JSON parser: status and the struct. The JSON tree's
own memory (owned by cJSON) is not part of this heap. -/
def parse (A : Alloc) (real : Bytes → Int) (root : Json) : M (Option RelayErr × HFilter) :=
    M.bind (fillStrings A (none, 0) (Json.get root (c!"ids"))) fun r =>
    let d := { zero with ids := r.2 }
    match r.1 with
    | some e => cleanup e d
    | none =>
    M.bind (fillStrings A (none, 0) (Json.get root (c!"authors"))) fun r =>
    let d := { d with authors := r.2 }
    match r.1 with
    | some e => cleanup e d
    | none =>
    M.bind (fillInts A real (Json.get root (c!"kinds"))) fun r =>
    let d := { d with kinds := r.2 }
    match r.1 with
    | some e => cleanup e d
    | none =>
    M.bind (fillStrings A (none, 0) (Json.get root (c!"#e"))) fun r =>
    let d := { d with eTags := r.2 }
    match r.1 with
    | some e => cleanup e d
    | none =>
    M.bind (fillStrings A (none, 0) (Json.get root (c!"#p"))) fun r =>
    let d := { d with pTags := r.2 }
    match r.1 with
    | some e => cleanup e d
    | none =>
    M.bind (fillGeneric A (genericMembers (members root))) fun r =>
    let d := { d with generic := r.2 }
    match r.1 with
    | some e => cleanup e d
    | none =>
    M.bind (fillSearch A (Json.get root (c!"search"))) fun r =>
    let d := { d with since := parseTime real (Json.get root (c!"since")),
                      until_ := parseTime real (Json.get root (c!"until")),
                      limit := parseLimit real (Json.get root (c!"limit")), search := r.2 }
    match r.1 with
    | some e => cleanup e d
    | none => M.pure (none, d)

/-! ## What a struct stands for -/

/-- `(p, n)` is the `kinds` array holding `l`. -/
inductive IntArr (m : Mem) : Option Nat × Nat → List Int → List Nat → Prop
  | null : IntArr m (none, 0) [] []
  | arr {a l rest} (ha : m a = some (.ints (l ++ rest))) : IntArr m (some a, l.length) l [a]

/-- The records `rs` hold the named value lists `l`. -/
inductive Recs (m : Mem) : List (UInt8 × Option Nat × Nat) → List (UInt8 × List Bytes) → List Nat → Prop
  | nil : Recs m [] [] []
  | cons {c r rs vs l o o'} (h : StrArr m r.1 r.2 vs o) (t : Recs m rs l o') :
      Recs m ((c, r) :: rs) ((c, vs) :: l) (o ++ o')

/-- The generic tags. -/
inductive RecArr (m : Mem) : Option Nat × Nat → List (UInt8 × List Bytes) → List Nat → Prop
  | null : RecArr m (none, 0) [] []
  | arr {a rs l o rest} (ha : m a = some (.recs (rs ++ rest))) (h : Recs m rs l o) :
      RecArr m (some a, rs.length) l (a :: o)

/-- The search text. -/
inductive OptStr (m : Mem) : Option Nat → Option Bytes → List Nat → Prop
  | null : OptStr m none none []
  | str {a s} (h : m a = some (.str s)) : OptStr m (some a) (some s) [a]

/-- The struct `f` stands for the filter `v` and owns exactly the blocks `own`. -/
inductive Repr (m : Mem) (f : HFilter) (v : Filter) : List Nat → Prop
  | mk {o1 o2 o3 o4 o5 o6 o7} (h1 : StrArr m f.ids.1 f.ids.2 v.ids o1)
      (h2 : StrArr m f.authors.1 f.authors.2 v.authors o2) (h3 : IntArr m f.kinds v.kinds o3)
      (h4 : StrArr m f.eTags.1 f.eTags.2 v.eTags o4) (h5 : StrArr m f.pTags.1 f.pTags.2 v.pTags o5)
      (h6 : RecArr m f.generic v.generic o6) (h7 : OptStr m f.search v.search o7)
      (h8 : f.since = v.since) (h9 : f.until_ = v.until_) (h10 : f.limit = v.limit) :
      Repr m f v (o1 ++ (o2 ++ (o3 ++ (o4 ++ (o5 ++ (o6 ++ o7))))))

end Nostr.Filter.Own
