import Verif.Own.Relay

/-!
# What creating a relay leaves in the caller's variable, and the arrays of parallel mining

The caller's variable holds NULL or an address.
-/

namespace Nostr.Own.Create
open Nostr Nostr.Heap

/-- relay.c:161-184 `nostr_relay_create`: the status and `*relay` afterwards. The structure's own fields are in the block; of them only
the address of the text matters, which is kept as its single pointer. -/
def relayInto (A : Alloc) (url : Bytes) : M (Option Err × Option Nat) :=
  M.bind (alloc A (.ptrs [none])) fun p =>
  match p with
  | none => M.pure (some .memory, none)
  | some p =>
    M.bind (alloc A (.str url)) fun u =>
    match u with
    | none => M.bind (free (some p)) fun _ => M.pure (some .memory, some p)
    | some u => M.bind (storePtr p 0 (some u)) fun _ => M.pure (none, some p)

/-- relay.c:186-195 `nostr_relay_destroy` of a relay that was never connected. -/
def relayDestroy (v : Option Nat) : M Unit :=
  match v with
  | none => M.pure ()
  | some p => M.bind (loadPtr (some p) 0) fun u => M.bind (free u) fun _ => free (some p)

/-- The ends of the work of the threads, nip13.c:504-534: the thread that cannot be started, or all of them end. -/
inductive Work
  | noThread (i : Nat)
  | found
  | notFound
  deriving DecidableEq, Repr

/-- nip13.c:490-539: the arrays of `nostr_nip13_mine_event_threaded`. What the threads do with the event is the subject of C12, C13 and
C143 to C146. -/
def mine (A : Alloc) (n : Nat) (w : Work) : M (Option Err) :=
  M.bind (alloc A (.ptrs (List.replicate n none))) fun threads =>
  M.bind (alloc A (.ptrs (List.replicate n none))) fun data =>
  match threads, data with
  | some _, some _ =>
      M.bind (free threads) fun _ => M.bind (free data) fun _ => M.pure (match w with
        | .noThread _ => some .protocol
        | .found => none
        | .notFound => some .notFound)
  | _, _ => M.bind (free threads) fun _ => M.bind (free data) fun _ => M.pure (some .memory)

end Nostr.Own.Create
