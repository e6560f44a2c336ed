import Verif.Filter.Model

/-!
# Model of the accessors for events, tags and filters, and of the texts for errors

src/relay_protocol.c:16-58, 245-256, 705-831, src/relay_filter.c:485-599, src/key.c:715-731. NULL arguments are answered
by NULL, 0 or false and are left out. A NULL pointer in a result is `none`. `event->tags` is NULL only without tags, and
the array of a tag is never NULL (events are built by `nostr_event_add_tag`).
-/

namespace Nostr.Access
open Nostr Nostr.Event Nostr.RelayProto Nostr.Filter

/-! ## Events and tags -/

/-- relay_protocol.c:773-777 `nostr_event_get_tag_count`. -/
def tagCount (e : Event) : Nat := e.tags.length

/-- relay_protocol.c:245-256 `nostr_event_get_tag_at`: the array with its `*out_count` values. -/
def tagAt (e : Event) (i : Nat) : Option (List Bytes) := if i ≥ e.tags.length then none else e.tags[i]?

/-- relay_protocol.c:779-785 `nostr_event_get_tag`. -/
def getTag (e : Event) (i : Nat) : Option (List Bytes) := if i ≥ e.tags.length then none else e.tags[i]?

/-- relay_protocol.c:787-793 `nostr_tag_get_name`. -/
def tagName (t : List Bytes) : Option Bytes := if t.length = 0 then none else t[0]?

/-- relay_protocol.c:795-799 `nostr_tag_get_value_count`. -/
def valueCount (t : List Bytes) : Nat := t.length

/-- relay_protocol.c:801-807 `nostr_tag_get_value`. -/
def valueAt (t : List Bytes) (i : Nat) : Option Bytes := if i ≥ t.length then none else t[i]?

/-- relay_protocol.c:809-823 `nostr_event_find_tag`. -/
def findTag (name : Bytes) : List (List Bytes) → Option (List Bytes)
  | [] => none
  | t :: ts =>
    match t with
    | [] => findTag name ts
    | n :: _ => if n = name then some t else findTag name ts

/-- include/nostr_relay_protocol.h:802-806 `nostr_tag_info_t`, as it is after a call that returned true. -/
structure Info where
  name : Bytes
  values : List Bytes
  deriving DecidableEq, Repr

/-- relay_protocol.c:705-731 `nostr_tag_iterator_next_info`: `none` is the return value false. -/
def nextInfo (it : Iter) : Option Info × Iter :=
  match it.next with
  | (none, it) => (none, it)
  | (some [], it) => (none, it)
  | (some (n :: vs), it) => (some (if vs.length + 1 > 1 then ⟨n, vs⟩ else ⟨n, []⟩), it)

/-- relay_protocol.c:207-210 `nostr_event_get_d_tag`. -/
def dTag (e : Event) : Option Bytes := tagValue e.tags c!"d"

/-- relay_protocol.c:825-829 `nostr_event_is_deletion`. -/
def isDeletion (e : Event) : Bool := decide (e.kind = 5)

/-- relay_protocol.c:282-285 `nostr_event_is_expired_now`; `now` is the clock. -/
def isExpiredNow (now : Int) (e : Event) : Bool := isExpired e now

/-- relay_protocol.c:755-771 `nostr_event_get_id_hex`, `nostr_event_get_pubkey_hex`: every `sprintf` writes two digits and a
NUL, the NUL is overwritten by the next one, and the NUL at 64 is written again. `i` bytes have been written so far. -/
def hexLoop (i : Nat) (out : Bytes) : Bytes → Bytes
  | [] => (out.take 64 ++ [0]) ++ out.drop 65
  | b :: bs => hexLoop (i + 1) (out.take (i * 2) ++ (Hex.hexEncode [b] ++ [0]) ++ out.drop (i * 2 + 3)) bs

/-- relay_protocol.c:755-762. `out` is the caller's buffer. -/
def idHex (e : Event) (out : Bytes) : Bytes := hexLoop 0 out e.id

/-- relay_protocol.c:764-771. -/
def pubkeyHex (e : Event) (out : Bytes) : Bytes := hexLoop 0 out e.pubkey

/-! ## Filters -/

/-- relay_filter.c:485-494 `nostr_filter_get_e_tags`. -/
def getETags (f : Filter) : List Bytes := f.eTags
/-- relay_filter.c:496-505 `nostr_filter_get_p_tags`. -/
def getPTags (f : Filter) : List Bytes := f.pTags

/-- relay_filter.c:521-529: the loop over the generic conditions. -/
def genericValues (c : UInt8) : List (UInt8 × List Bytes) → List Bytes
  | [] => []
  | g :: gs => if g.1 = c then g.2 else genericValues c gs

/-- relay_filter.c:507-530 `nostr_filter_get_tag_values`: the array with its `*count` values. -/
def getTagValues (f : Filter) (c : UInt8) : List Bytes :=
  if c = 0x65 then getETags f else if c = 0x70 then getPTags f else genericValues c f.generic

/-- relay_filter.c:532-539 `nostr_filter_has_tag_filters`. -/
def hasTagFilters (f : Filter) : Bool :=
  decide (f.eTags.length > 0) || decide (f.pTags.length > 0) || decide (f.generic.length > 0)

/-- relay_filter.c:541-549 `nostr_filter_get_ids`. -/
def getIds (f : Filter) : List Bytes := f.ids
/-- relay_filter.c:551-559 `nostr_filter_get_authors`. -/
def getAuthors (f : Filter) : List Bytes := f.authors
/-- relay_filter.c:561-569 `nostr_filter_get_kinds`. -/
def getKinds (f : Filter) : List Int := f.kinds
/-- relay_filter.c:571-575 `nostr_filter_get_since`. -/
def getSince (f : Filter) : Int := f.since
/-- relay_filter.c:577-581 `nostr_filter_get_until`. -/
def getUntil (f : Filter) : Int := f.until_
/-- relay_filter.c:583-587 `nostr_filter_get_limit`. -/
def getLimit (f : Filter) : Int := f.limit
/-- relay_filter.c:589-593 `nostr_filter_get_search`. -/
def getSearch (f : Filter) : Option Bytes := f.search

/-- relay_filter.c:595-599 `nostr_filter_has_search`. -/
def hasSearch (f : Filter) : Bool :=
  match f.search with
  | none => false
  | some s => decide (s.length ≠ 0)

/-! ## Reports -/

/-- include/nostr_relay_protocol.h:92-97 `nostr_validation_result_t`: the two arrays as they lie in memory, 256 and 64 bytes. -/
structure Result where
  valid : Bool
  code : Option RelayErr
  message : Bytes
  field : Bytes
  deriving DecidableEq, Repr

/-- `strncpy(a, s, n)`: `s` without its NUL, padded with NUL to `n` bytes. -/
def strncpy (a s : Bytes) (n : Nat) : Bytes := (s.take n ++ List.replicate (n - s.length) 0) ++ a.drop n

/-- `a[0] = '\0'`. -/
def clear (a : Bytes) : Bytes := [0] ++ a.drop 1

/-- relay_protocol.c:466-469 and the similar blocks: code, message and field of a failure. -/
def report (r : Result) (code : RelayErr) (message field : Bytes) : Result :=
  ⟨false, some code, strncpy r.message message 255, strncpy r.field field 63⟩

/-- relay_protocol.c:449-509 `nostr_event_validate_full`: status and the caller's result; `none` is a NULL event. The checks are
those of `RelayProto.validateFull`. -/
def validateFull (C : Crypto) (b : Build) (now maxFuture : Int) (e : Option Event) (r : Result) : Res Unit × Result :=
  match e with
  | none => (.err (.relay .missingField), ⟨false, some .missingField, strncpy r.message c!"null event" 255, clear r.field⟩)
  | some e =>
    let r := { r with valid := false, code := none, message := clear r.message, field := clear r.field }
    match validateTimestamp now e.createdAt maxFuture with
    | .ub => (.ub, r)
    | .err x => (.err x, r)
    | .ok false => (.err (.relay .futureEvent), report r .futureEvent c!"event creation date is too far off from the current time" c!"created_at")
    | .ok true =>
      if isExpiredNow now e then (.err (.relay .expiredEvent), report r .expiredEvent c!"event has expired" c!"expiration")
      else match computeId C b e with
        | .ub => (.ub, r)
        | .err _ => (.err (.relay .invalidId), report r .invalidId c!"failed to compute event ID" c!"id")
        | .ok t =>
          if memcmp e.id t.id ≠ 0 then (.err (.relay .idMismatch), report r .idMismatch c!"event ID does not match content" c!"id")
          else match verify C b e with
            | .ub => (.ub, r)
            | .err _ => (.err (.relay .sigMismatch), report r .sigMismatch c!"signature verification failed" c!"sig")
            | .ok _ => (.ok (), { r with valid := true })

/-- relay_filter.c:270-337 `nostr_filter_validate`; `none` is a NULL filter. -/
def validateFilter (f : Option Filter) (r : Result) : Res Unit × Result :=
  match f with
  | none => (.err (.relay .missingField), { r with valid := false, code := some .missingField })
  | some f =>
    let r := { r with valid := true, code := none, message := clear r.message, field := clear r.field }
    if !f.ids.all validateHexPrefix then (.err (.relay .invalidId), report r .invalidId c!"invalid hex prefix in ids" c!"ids")
    else if !f.authors.all validateHexPrefix then
      (.err (.relay .invalidPubkey), report r .invalidPubkey c!"invalid hex prefix in authors" c!"authors")
    else if !f.eTags.all validateHex64 then (.err (.relay .invalidId), report r .invalidId c!"invalid event ID in #e filter" c!"#e")
    else if !f.pTags.all validateHex64 then (.err (.relay .invalidPubkey), report r .invalidPubkey c!"invalid pubkey in #p filter" c!"#p")
    else if f.search.any (fun s => decide (s.length > 65536)) then
      (.err (.relay .invalidContent), report r .invalidContent c!"search query too long" c!"search")
    else (.ok (), r)

/-- The C string in an array; `none` if it has no end, so that reading it runs out of the array. -/
def cstr (a : Bytes) : Option Bytes := if 0 ∈ a then some (a.takeWhile (· != 0)) else none

/-- `snprintf(buf, buf_size, …)` printing `text`, `buf_size = buf.length > 0`. -/
def snprintf (buf text : Bytes) : Bytes := (text.take (buf.length - 1) ++ [0]) ++ buf.drop (min text.length (buf.length - 1) + 1)

/-- relay_protocol.c:42-58 `nostr_validation_error_format`: the count returned and the caller's buffer. Lengths beyond `int` do
not occur, the two texts have less than 320 characters. -/
def format (r : Result) (buf : Bytes) : Res (Nat × Bytes) :=
  if buf.length = 0 then .ok (0, buf)
  else match cstr r.message with
    | none => .ub
    | some m =>
      if r.field.head? ≠ some 0 then
        match cstr r.field with
        | none => .ub
        | some fl =>
          let text := c!"invalid:" ++ c!" " ++ m ++ c!" for field '" ++ fl ++ c!"'"
          .ok (if text.length > 0 ∧ text.length < buf.length then text.length else 0, snprintf buf text)
      else
        let text := c!"invalid:" ++ c!" " ++ m
        .ok (if text.length > 0 ∧ text.length < buf.length then text.length else 0, snprintf buf text)

/-- relay_protocol.c:16-40 `nostr_relay_error_string`; `none` is `NOSTR_RELAY_OK`. -/
def relayErrorString : Option RelayErr → Bytes
  | none => c!"OK"
  | some .invalidJson => c!"invalid JSON"
  | some .missingField => c!"missing required field"
  | some .invalidId => c!"invalid event ID"
  | some .invalidPubkey => c!"invalid pubkey"
  | some .invalidSig => c!"invalid signature"
  | some .invalidCreatedAt => c!"invalid created_at"
  | some .invalidKind => c!"invalid kind"
  | some .invalidTags => c!"invalid tags"
  | some .invalidContent => c!"invalid content"
  | some .idMismatch => c!"event ID mismatch"
  | some .sigMismatch => c!"signature verification failed"
  | some .futureEvent => c!"event created_at too far in future"
  | some .expiredEvent => c!"event has expired"
  | some .invalidSubscriptionId => c!"invalid subscription ID"
  | some .tooManyFilters => c!"too many filters"
  | some .bufferTooSmall => c!"buffer too small"
  | some .memory => c!"memory allocation failed"
  | some .unknownMessageType => c!"unknown message type"
  | some .storage => c!"unknown error"

/-- key.c:715-731 `nostr_error_string`; `none` is `NOSTR_OK`. Only codes of `nostr_error_t` are meant, a `relay` code is of
another type. -/
def errorString : Option Err → Bytes
  | none => c!"Success"
  | some .invalidKey => c!"Invalid key"
  | some .invalidEvent => c!"Invalid event"
  | some .invalidSignature => c!"Invalid signature"
  | some .memory => c!"Memory allocation failed"
  | some .jsonParse => c!"JSON parsing error"
  | some .encoding => c!"Encoding error"
  | some .connection => c!"Connection error"
  | some .protocol => c!"Protocol error"
  | some .notFound => c!"Not found"
  | some .timeout => c!"Timeout"
  | some .invalidParam => c!"Invalid parameter"
  | some .notSupported => c!"Unknown error"
  | some (.relay _) => c!"Unknown error"

end Nostr.Access
