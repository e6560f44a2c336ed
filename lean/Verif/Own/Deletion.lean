import Verif.Heap
import Verif.RelayProto.Model

/-! # Memory of a deletion request (src/relay_protocol.c) -/

namespace Nostr.Own.Deletion
open Nostr Nostr.Heap Nostr.Event

/-- include/nostr_relay_protocol.h `nostr_deletion_request_t`: its pointers and counts. -/
structure HDel where
  pubkey : Bytes
  reason : Option Nat
  ids : Option Nat
  idCount : Nat
  addresses : Option Nat
  addressCount : Nat
  deriving DecidableEq, Repr

/-- relay_protocol.c:540, 531: the structure after `memset`. -/
def empty : HDel := ⟨[], none, none, 0, none, 0⟩

/-- relay_protocol.c:511-532 `nostr_deletion_free`. -/
def release (r : HDel) : M HDel :=
  M.bind (freeStrings r.ids r.idCount) fun _ =>
  M.bind (freeStrings r.addresses r.addressCount) fun _ =>
  M.bind (free r.reason) fun _ => M.pure empty

/-- The failure paths. -/
def fail (r : HDel) : M (Option Err × HDel) := M.bind (release r) fun z => M.pure (some (.relay .memory), z)

/-- relay_protocol.c:562-570: how many tags with a value have the name `n`. -/
def count (n : Bytes) : List (List Bytes) → Nat
  | [] => 0
  | (m :: _ :: _) :: ts => if m = n then count n ts + 1 else count n ts
  | _ :: ts => count n ts

/-- relay_protocol.c:572-586: an array for `n` strings, none for zero. The first component says whether it failed. -/
def array (A : Alloc) (n : Nat) : M (Bool × Option Nat) :=
  if n = 0 then M.pure (false, none)
  else M.bind (alloc A (.ptrs (List.replicate n none))) fun d => M.pure (d.isNone, d)

/-- relay_protocol.c:592-593 and 601-602: the copy is stored before it is tested. -/
def put (A : Alloc) (d : Option Nat) (i : Nat) (s : Bytes) : M (Option Nat) :=
  M.bind (alloc A (.str s)) fun c =>
  match d with
  | none => fun _ => none
  | some d => M.bind (storePtr d i c) fun _ => M.pure c

/-- relay_protocol.c:588-610. -/
def fill (A : Alloc) (r : HDel) : List (List Bytes) → M (Option Err × HDel)
  | [] => M.pure (none, r)
  | (n :: v :: _) :: ts =>
      if n = c!"e" then
        if RelayProto.validateHex64 v then
          M.bind (put A r.ids r.idCount v) fun c =>
          match c with
          | none => fail r
          | some _ => fill A { r with idCount := r.idCount + 1 } ts
        else fill A r ts
      else if n = c!"a" then
        if RelayProto.validateAddress v then
          M.bind (put A r.addresses r.addressCount v) fun c =>
          match c with
          | none => fail r
          | some _ => fill A { r with addressCount := r.addressCount + 1 } ts
        else fill A r ts
      else fill A r ts
  | _ :: ts => fill A r ts

/-- relay_protocol.c:572-612. -/
def arrays (A : Alloc) (r : HDel) (ts : List (List Bytes)) : M (Option Err × HDel) :=
  M.bind (array A (count c!"e" ts)) fun i =>
  if i.1 then fail r
  else M.bind (array A (count c!"a" ts)) fun a =>
    if a.1 then fail { r with ids := i.2 }
    else fill A { r with ids := i.2, addresses := a.2 } ts

/-- relay_protocol.c:534-613 `nostr_deletion_parse`: the status and the request as the caller finds it. -/
def parse (A : Alloc) (e : Event) : M (Option Err × HDel) :=
  if e.kind ≠ 5 then M.pure (some (.relay .invalidKind), empty)
  else match e.content with
    | some (c :: cs) =>
        M.bind (alloc A (.str (c :: cs))) fun s =>
        match s with
        | none => fail { empty with pubkey := Hex.hexEncode e.pubkey }
        | some s => arrays A { empty with pubkey := Hex.hexEncode e.pubkey, reason := some s } e.tags
    | _ => arrays A { empty with pubkey := Hex.hexEncode e.pubkey } e.tags

end Nostr.Own.Deletion
