import Verif.Heap
import Verif.Nip46.Model

/-!
# Memory of remote signing requests (src/nip46.c, builds with cJSON and NIP-44)

`Verif/Nip46` models the values. This file models the blocks: the decrypted text, and the text of the parameters that
the request keeps. The tree that cJSON builds, and the memory inside the decryption, are not modelled.
-/

namespace Nostr.Own.Signer
open Nostr Nostr.Heap Nostr.Nip46 Nostr.Json

/-- include/nostr.h:940-946 `nostr_nip46_request_t`: the structure belongs to the caller. The default is the structure
filled with zeros. -/
structure HReq where
  id : Bytes := []
  method : Bytes := []
  params : Option Nat := none
  len : Nat := 0
  sender : Bytes := List.replicate 32 0
  deriving DecidableEq, Repr

/-- nip46.c:52-62: the parameters are printed into a new block; without memory for it they are left out. -/
def readParams (A : Alloc) (q : HReq) (t : Option Bytes) : M (Option Err × HReq) :=
  match t with
  | none => M.pure (none, q)
  | some t => M.bind (alloc A (.str t)) fun p =>
      match p with
      | none => M.pure (none, q)
      | some p => M.pure (none, { q with params := some p, len := t.length })

/-- nip46.c:12-71 `nostr_nip46_parse_request`: the status and the structure afterwards. The event is a value. -/
def parseRequest (A : Alloc) (E : Nip47.Env) (r : Bytes → Json) (e : Event.Event) (sk : Bytes) : M (Option Err × HReq) :=
  if e.kind ≠ kind46 then M.pure (some .invalidEvent, {})
  else match e.content with
    | none => M.pure (some .invalidParam, { sender := e.pubkey })
    | some t => match Nip44.decrypt E.nc E.b64 E.cfg sk e.pubkey t with
      | .ub => fun _ => none
      | .err x => M.pure (some x, { sender := e.pubkey })
      | .ok d => M.bind (alloc A (.str d)) fun p =>
          match p with
          | none => M.pure (some .memory, { sender := e.pubkey })
          | some p =>
            M.bind (loadStr p) fun s =>
            M.bind (free (some p)) fun _ =>
            match parse (cstr s) with
            | none => M.pure (some .jsonParse, { sender := e.pubkey })
            | some root => readParams A { id := field 64 root (c!"id"), method := field 31 root (c!"method"), sender := e.pubkey }
                ((get root (c!"params")).map (reprint r))

/-- nip46.c:154-160 `nostr_nip46_request_free`: the structure afterwards. -/
def freeRequest (q : HReq) : M HReq :=
  match q.params with
  | none => M.pure q
  | some p => M.bind (free (some p)) fun _ => M.pure { q with params := none, len := 0 }

/-- nip46.c:162-170 `nostr_nip46_response_free`, on the pointers `result` and `error`. -/
def freeResponse (q : Option Nat × Option Nat) : M (Option Nat × Option Nat) :=
  M.bind (free q.1) fun _ => M.bind (free q.2) fun _ => M.pure (none, none)

end Nostr.Own.Signer
