import Verif.Filter.Heap
import Verif.Nip05.Model

/-! # Memory of identifier look-ups (src/nip05.c) -/

namespace Nostr.Own.Nip05
open Nostr Nostr.Heap Nostr.Nip05

/-- nip05.c:215, 224: `if (*p != k) return NOSTR_OK;`, otherwise what follows. -/
def after (k : UInt8) : Bytes → Option Bytes
  | [] => none
  | c :: s => if c = k then some s else none

/-- nip05.c:211-225: the list of relays, as the characters after its bracket, or nothing. -/
def listOf (json key : Bytes) : Option Bytes :=
  (strstr json (c!"\"relays\"")).bind fun p =>
  (after 0x7b (skipColon (p.drop 8))).bind fun q =>
  (strstr (0x7b :: q) (0x22 :: key ++ [0x22])).bind fun r =>
  after 0x5b (skipColon (r.drop (key.length + 2)))

/-- nip05.c:227-269: an array for all strings of the list, filled with those that are relay addresses; the status, the array and
the number of relays. A relay that cannot be copied releases what was made (nip05.c:261-263). -/
def relays (A : Alloc) (json key : Bytes) : M (Option Err × Option Nat × Nat) :=
  match listOf json key with
  | none => M.pure (none, none, 0)
  | some list =>
      if countLoop [] false list = 0 then M.pure (none, none, 0)
      else if countLoop [] false list > 100 then M.pure (some .invalidParam, none, 0)
      else M.bind (alloc A (.ptrs (List.replicate (countLoop [] false list) none))) fun d =>
        match d with
        | none => M.pure (some .memory, none, 0)
        | some d =>
          M.bind (Filter.Own.fillLoop A d (collect (countLoop [] false list) [] none list) 0) fun b =>
          if b then M.pure (none, some d, (collect (countLoop [] false list) [] none list).length)
          else M.pure (some .memory, none, 0)

/-- nip05.c:167-271 `nostr_nip05_parse_response`: the status, the key and the relays. -/
def parseResponse (A : Alloc) (json name : Bytes) (want : Bool) : M (Option Err × Bytes × Option Nat × Nat) :=
  match keyOf json name with
  | .ub => fun _ => none
  | .err x => M.pure (some x, [], none, 0)
  | .ok key =>
      if want then M.bind (relays A json key) fun r => M.pure (r.1, key, r.2)
      else M.pure (none, key, none, 0)

/-- The answer of the caller's callback: its status, the block it leaves in `*response` (all bytes of it) and the length
it reports. -/
structure Answer where
  status : Option Err
  response : Option Bytes
  len : Nat

/-- The text that starts a block; `none` when no NUL ends it. -/
def textOf (raw : Bytes) : Option Bytes := if 0 ∈ raw then some (raw.takeWhile (· != 0)) else none

/-- nip05.c:301-306: the callback makes a block for its answer. Where there is no memory for it, it leaves NULL. -/
def fetch (A : Alloc) (a : Answer) : M (Option Nat) :=
  match a.response with
  | none => M.pure none
  | some raw => alloc A (.str raw)

/-- nip05.c:285-348 `nostr_nip05_verify`: the status and the relays. `want` says that both relay arguments are given. -/
def verify (A : Alloc) (http : Bytes → Answer) (identifier expected : Bytes) (want : Bool) : M (Option Err × Option Nat × Nat) :=
  match (parse identifier 65 257 >>= fun nd => buildUrl nd.1 nd.2 512 >>= fun url => .ok (nd.1, url)) with
  | .ub => fun _ => none
  | .err x => M.pure (some x, none, 0)
  | .ok (name, url) =>
      M.bind (fetch A (http url)) fun p =>
      match (http url).status with
      | some x => M.bind (free p) fun _ => M.pure (some x, none, 0)
      | none =>
        match p with
        | none => M.pure (some .notFound, none, 0)
        | some q =>
          if (http url).len = 0 then M.bind (free p) fun _ => M.pure (some .notFound, none, 0)
          else if (http url).len > 1048576 then M.bind (free p) fun _ => M.pure (some .invalidParam, none, 0)
          else M.bind (loadStr q) fun raw =>
            match textOf raw with
            | none => fun _ => none
            | some text =>
              M.bind (parseResponse A text name want) fun r =>
              M.bind (free p) fun _ =>
              match r.1 with
              | some x => M.pure (some x, none, 0)
              | none =>
                if expected.length ≠ 64 ∨ Hex.ctMemcmp r.2.1 (lower expected) ≠ 0 then
                  M.bind (freeStrings r.2.2.1 r.2.2.2) fun _ => M.pure (some .invalidKey, none, 0)
                else M.pure (none, r.2.2)

end Nostr.Own.Nip05
