import Verif.RelayProto.Model

/-!
# Model of subscription filters (src/relay_filter.c)

A filter is a value here; the ownership of its memory is modelled in `Verif/Filter/Heap.lean`.
-/

namespace Nostr.Filter
open Nostr Nostr.Event Nostr.Json Nostr.RelayProto

/-- include/nostr_relay_protocol.h:115-132 `nostr_filter_t`. Arrays with count 0 are empty lists;
`search = none` is NULL. -/
structure Filter where
  ids : List Bytes
  authors : List Bytes
  kinds : List Int
  eTags : List Bytes
  pTags : List Bytes
  generic : List (UInt8 × List Bytes)
  since : Int
  until_ : Int
  limit : Int
  search : Option Bytes
  deriving DecidableEq, Repr

/-- The `memset` filter: no condition. -/
def empty : Filter := ⟨[], [], [], [], [], [], 0, 0, 0, none⟩

/-- include/nostr_relay_protocol.h:692-700 `NOSTR_MAX_TAG_FILTER_VALUES`. -/
def maxValues : Nat := 256

/-- relay_filter.c:18-61 `parse_string_array`: a missing value or a non-array is the empty list, elements
that are not strings are dropped. -/
def parseStrings (j : Option Json) : Res (List Bytes) :=
  match j.bind asArr with
  | none => .ok []
  | some l => if l.length > maxValues then .err (.relay .invalidJson) else .ok (l.filterMap asStr)

/-- relay_filter.c:63-96 `parse_int_array`. -/
def parseInts (real : Bytes → Int) (j : Option Json) : Res (List Int) :=
  match j.bind asArr with
  | none => .ok []
  | some l =>
      if l.length > maxValues then .err (.relay .invalidJson)
      else .ok ((l.filterMap asNum).map (valueint real))

/-- `isalpha` in the "C" locale. -/
def isAlpha (c : UInt8) : Bool :=
  (decide (0x61 ≤ c) && decide (c ≤ 0x7a)) || (decide (0x41 ≤ c) && decide (c ≤ 0x5a))

/-- relay_filter.c:133-136 and 151-154: the letter of a generic tag condition. -/
def genericLetter (key : Bytes) : Option UInt8 :=
  match key with
  | [h, c] => if h = 0x23 ∧ c ≠ 0x65 ∧ c ≠ 0x70 ∧ isAlpha c = true then some c else none
  | _ => none

/-- relay_filter.c:149-165: the generic tag loop over the members of the document. -/
def parseGeneric : List (Bytes × Json) → Res (List (UInt8 × List Bytes))
  | [] => .ok []
  | (k, v) :: ms =>
      match genericLetter k with
      | none => parseGeneric ms
      | some c =>
          parseStrings (some v) >>= fun vs => parseGeneric ms >>= fun r => .ok ((c, vs) :: r)

/-- The named children `cJSON_ArrayForEach` visits: the members of an object (array elements have no name). -/
def members : Json → List (Bytes × Json)
  | .obj m => m
  | _ => []

/-- relay_filter.c:170-178: `since` and `until`. -/
def parseTime (real : Bytes → Int) (j : Option Json) : Int :=
  match j.bind asNum with
  | none => 0
  | some t => int64 real t

/-- relay_filter.c:180-183: `limit`. -/
def parseLimit (real : Bytes → Int) (j : Option Json) : Int :=
  match j.bind asNum with
  | none => 0
  | some t => valueint real t

/-- relay_filter.c:185-196: `search`. -/
def parseSearch (j : Option Json) : Res (Option Bytes) :=
  match j.bind asStr with
  | none => .ok none
  | some s => if s.length > 65536 then .err (.relay .invalidJson) else .ok (some s)

/-- relay_filter.c:111-199: `nostr_filter_parse` after the JSON parser. -/
def ofTree (real : Bytes → Int) (root : Json) : Res Filter :=
  parseStrings (get root (c!"ids")) >>= fun ids =>
  parseStrings (get root (c!"authors")) >>= fun authors =>
  parseInts real (get root (c!"kinds")) >>= fun kinds =>
  parseStrings (get root (c!"#e")) >>= fun es =>
  parseStrings (get root (c!"#p")) >>= fun ps =>
  parseGeneric (members root) >>= fun gs =>
  parseSearch (get root (c!"search")) >>= fun search =>
  .ok ⟨ids, authors, kinds, es, ps, gs, parseTime real (get root (c!"since")),
    parseTime real (get root (c!"until")), parseLimit real (get root (c!"limit")), search⟩

/-- relay_filter.c:98-205 `nostr_filter_parse` (cJSON build). A positive length limits the text that is
read; lengths beyond the end of the text are not modelled. -/
def parseFilter (real : Bytes → Int) (json : Bytes) (len : Nat) : Res Filter :=
  match parse (if len > 0 then json.take len else json) with
  | none => .err (.relay .invalidJson)
  | some root => ofTree real root

/-- relay_filter.c:270-337 `nostr_filter_validate`: error code and field. -/
def validate (f : Filter) : Res Unit × Bytes :=
  if !f.ids.all validateHexPrefix then (.err (.relay .invalidId), c!"ids")
  else if !f.authors.all validateHexPrefix then (.err (.relay .invalidPubkey), c!"authors")
  else if !f.eTags.all validateHex64 then (.err (.relay .invalidId), c!"#e")
  else if !f.pTags.all validateHex64 then (.err (.relay .invalidPubkey), c!"#p")
  else if f.search.any (fun s => decide (s.length > 65536)) then (.err (.relay .invalidContent), c!"search")
  else (.ok (), [])

/-- relay_filter.c:339-344 `hex_starts_with`. -/
def hexStartsWith (hex pre : Bytes) : Bool :=
  if pre.length > hex.length then false else decide (hex.take pre.length = pre)

/-- relay_filter.c:395-409 (and 411-425, 433-442): some listed value is among the first 256 values the
event carries under `name`. -/
def tagMatch (e : Event) (name : Bytes) (values : List Bytes) : Bool :=
  values.any fun w => (tagValuesN name maxValues e.tags).any fun v => decide (v = w)

/-- relay_filter.c:346-446 `nostr_filter_matches`. -/
def matches_ (f : Filter) (e : Event) : Bool :=
  if decide (f.ids ≠ []) && !(f.ids.any (hexStartsWith (Hex.hexEncode e.id))) then false
  else if decide (f.authors ≠ []) && !(f.authors.any (hexStartsWith (Hex.hexEncode e.pubkey))) then false
  else if decide (f.kinds ≠ []) && !(f.kinds.any fun k => decide (k = (e.kind : Int))) then false
  else if f.since > 0 ∧ e.createdAt < f.since then false
  else if f.until_ > 0 ∧ e.createdAt > f.until_ then false
  else if decide (f.eTags ≠ []) && !tagMatch e (c!"e") f.eTags then false
  else if decide (f.pTags ≠ []) && !tagMatch e (c!"p") f.pTags then false
  else f.generic.all fun g => tagMatch e [g.1] g.2

/-- relay_filter.c:448-458 `nostr_filter_matches_with_search`; `cb = none` is a NULL callback. -/
def matchesWithSearch (f : Filter) (e : Event) (cb : Option (Bytes → Event → Bool)) : Bool :=
  if !matches_ f e then false
  else match f.search with
    | some (c :: cs) => cb.any fun p => p (c :: cs) e
    | _ => true

/-- relay_filter.c:460-470 `nostr_filters_match`. -/
def filtersMatch (fs : List Filter) (e : Event) : Bool := fs.any fun f => matches_ f e

/-- relay_filter.c:472-483 `nostr_filters_match_with_search`. -/
def filtersMatchWithSearch (fs : List Filter) (e : Event) (cb : Option (Bytes → Event → Bool)) : Bool :=
  fs.any fun f => matchesWithSearch f e cb

end Nostr.Filter
