import Verif.Heap
import Verif.Own.Deleg

/-!
# Memory of a relay information document (src/relay_nip11.c)

`Verif/Nip11` models the values. This file models the blocks that `nostr_relay_info_free` releases: the list of NIPs,
which the library allocates, and the arrays that the caller attaches. The texts of the document (`name`, …) belong to
the caller and are never released.
-/

namespace Nostr.Own.Doc
open Nostr Nostr.Heap

/-- include/nostr_relay_protocol.h:742-769 `nostr_relay_info_t`: the pointers that are released, with their counts. An array
of retention rules is kept as the block of its `kinds` pointers; an array of fees as the block of its pointers
`unit`, `kinds`, `unit`, `kinds`, …. The default is the document after `nostr_relay_info_init` (relay_nip11.c:35-41). -/
structure HDoc where
  nips : Option Nat := none
  count : Nat := 0
  retention : Option Nat := none
  retentionCount : Nat := 0
  admission : Option Nat := none
  admissionCount : Nat := 0
  subscription : Option Nat := none
  subscriptionCount : Nat := 0
  publication : Option Nat := none
  publicationCount : Nat := 0
  countries : Option Nat := none
  languages : Option Nat := none
  tags : Option Nat := none
  deriving DecidableEq, Repr

/-- The first `n` numbers of an array. -/
def loadInts (p n : Nat) : M (List Int) := fun h =>
  match h.mem p with
  | some (.ints l) => if n ≤ l.length then some (l.take n, h) else none
  | _ => none

/-- relay_nip11.c:43-67 `nostr_relay_info_set_nips`; `src` is the caller's array or NULL. Products of the count that do
not fit `size_t` are not modelled. -/
def setNips (A : Alloc) (d : HDoc) (src : Option Nat) (n : Nat) : M (Option RelayErr × HDoc) :=
  M.bind (free d.nips) fun _ =>
  let d := { d with nips := none, count := 0 }
  match src with
  | none => M.pure (none, d)
  | some p =>
    if n = 0 then M.pure (none, d)
    else M.bind (alloc A (.ints (List.replicate n 0))) fun c =>
      match c with
      | none => M.pure (some .memory, d)
      | some c =>
        M.bind (loadInts p n) fun l =>
        M.bind (store c (.ints l)) fun _ =>
        M.pure (none, { d with nips := some c, count := n })

/-- relay_nip11.c:69-84 `nostr_relay_info_add_nip`. -/
def addNip (A : Alloc) (d : HDoc) (k : Int) : M (Option RelayErr × HDoc) :=
  M.bind (Deleg.pushInt A d.nips d.count k) fun c =>
  match c with
  | none => M.pure (some .memory, d)
  | some c => M.pure (none, { d with nips := some c, count := d.count + 1 })

/-- The loops of relay_nip11.c:91-127: the pointers with the given indices are released. -/
def freeEach (a : Nat) : List Nat → M Unit
  | [] => M.pure ()
  | i :: is => M.bind (loadPtr (some a) i) fun p => M.bind (free p) fun _ => freeEach a is

/-- An array with the pointers in it, if there is one. -/
def freeArr (p : Option Nat) (is : List Nat) : M Unit :=
  match p with
  | none => M.pure ()
  | some a => M.bind (freeEach a is) fun _ => free (some a)

/-- relay_nip11.c:86-136 `nostr_relay_info_free`: the document afterwards. Of admission and subscription fees only the
`unit` is released (lines 103-105 and 112-114), of publication fees first the `kinds` (lines 121-126). -/
def destroy (d : HDoc) : M HDoc :=
  M.bind (freeArr d.retention (List.range d.retentionCount)) fun _ =>
  M.bind (freeArr d.admission ((List.range d.admissionCount).map (2 * ·))) fun _ =>
  M.bind (freeArr d.subscription ((List.range d.subscriptionCount).map (2 * ·))) fun _ =>
  M.bind (freeArr d.publication ((List.range d.publicationCount).flatMap fun i => [2 * i + 1, 2 * i])) fun _ =>
  M.bind (free d.nips) fun _ =>
  M.bind (free d.countries) fun _ =>
  M.bind (free d.languages) fun _ =>
  M.bind (free d.tags) fun _ =>
  M.pure {}

/-! ## A program that uses a document -/

/-- A call. -/
inductive Call
  | set (src : Option Nat) (n : Nat)
  | add (k : Int)
  deriving DecidableEq, Repr

def call (A : Alloc) (d : HDoc) : Call → M (Option RelayErr × HDoc)
  | .set src n => setNips A d src n
  | .add k => addNip A d k

/-- One call after the other. -/
def calls (A : Alloc) : HDoc → List Call → M (List (Option RelayErr) × HDoc)
  | d, [] => M.pure ([], d)
  | d, c :: cs => M.bind (call A d c) fun r => M.bind (calls A r.2 cs) fun q => M.pure (r.1 :: q.1, q.2)

end Nostr.Own.Doc
