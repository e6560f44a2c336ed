import Verif.Heap
import Verif.Filter.Heap
import Verif.Nip47.Model

/-! # Memory of a wallet connection (src/nip47.c) -/

namespace Nostr.Own
open Nostr Nostr.Heap

/-- `realloc` of a `char**` to `n` entries: NULL leaves the old block; the new block may have the old address. -/
def realloc (A : Alloc) (p n : Nat) : M (Option Nat) := fun h =>
  match h.mem p with
  | some (.ptrs l) =>
      match A (upd h.mem p none) h.tick with
      | none => some (none, ⟨h.mem, h.tick + 1⟩)
      | some a => some (some a, ⟨upd (upd h.mem p none) a (some (.ptrs (l ++ List.replicate (n - l.length) none))), h.tick + 1⟩)
  | _ => none

namespace Conn

/-- nip47.c:67-73 `struct nwc_connection` and the local `relay_cap` (line 191). The block of the structure is
`self`; its fields are kept here, not in the heap. -/
structure HConn where
  self : Nat
  relays : Option Nat
  count : Nat
  cap : Nat
  lud16 : Option Nat
  secret : Option Bytes
  key : Bytes
  deriving DecidableEq, Repr

/-- nip47.c:94-112 `free_connection`, 846-850 `nostr_nip47_free_connection`. -/
def freeConn (c : HConn) : M Unit :=
  M.bind (freeStrings c.relays c.count) fun _ =>
  M.bind (free c.lud16) fun _ =>
  free (some c.self)

/-- The failure paths of nip47.c:194-247: release the copy of the query and the connection. -/
def fail (e : Err) (params : Nat) (c : HConn) : M (Option Err × HConn) :=
  M.bind (free (some params)) fun _ => M.bind (freeConn c) fun _ => M.pure (some e, c)

/-- nip47.c:209-228: one relay; the array grows by doubling. -/
def addRelay (A : Alloc) (params : Nat) (c : HConn) (value : Bytes) : M (Option Err × HConn) :=
  M.bind
    (if c.count ≥ c.cap then
      match c.relays with
      | none => fun _ => none
      | some d => M.bind (realloc A d (c.cap * 2)) fun r =>
          match r with
          | none => M.bind (fail .memory params { c with cap := c.cap * 2 }) fun x => M.pure x
          | some d' => M.pure (none, { c with relays := some d', cap := c.cap * 2 })
     else M.pure (none, c)) fun g =>
  match g.1 with
  | some e => M.pure (some e, g.2)
  | none =>
      M.bind (alloc A (.str (Nip47.urlDecode value))) fun s =>
      match s, g.2.relays with
      | none, _ => fail .memory params g.2
      | some s, some d => M.bind (storePtr d g.2.count (some s)) fun _ => M.pure (none, { g.2 with count := g.2.count + 1 })
      | some _, none => fun _ => none

/-- nip47.c:201-251: one parameter. -/
def param (A : Alloc) (params : Nat) (c : HConn) (p : Bytes) : M (Option Err × HConn) :=
  match RelayProto.strchr 0x3d p with
  | none => M.pure (none, c)
  | some (name, value) =>
      if name = c!"relay" then addRelay A params c value
      else if name = c!"secret" then
        if value.length ≠ 64 then fail .invalidParam params c
        else match Nip47.hexDecode value 32 with
          | none => fail .invalidParam params c
          | some b => M.pure (none, { c with secret := some b })
      else if name = c!"lud16" then
        M.bind (alloc A (.str (Nip47.urlDecode value))) fun s =>
        match s with
        | none => fail .memory params { c with lud16 := none }
        | some s => M.pure (none, { c with lud16 := some s })
      else M.pure (none, c)

/-- nip47.c:199-253: all parameters. -/
def loop (A : Alloc) (params : Nat) : HConn → List Bytes → M (Option Err × HConn)
  | c, [] => M.pure (none, c)
  | c, p :: ps => M.bind (param A params c p) fun r =>
      match r.1 with
      | some e => M.pure (some e, r.2)
      | none => loop A params r.2 ps

/-- nip47.c:155-264 `nostr_nip47_parse_connection_uri`: an error, or the connection that is handed out. -/
def parse (A : Alloc) (uri : Bytes) : M (Option Err × Option HConn) :=
  if uri.take Nip47.scheme.length ≠ Nip47.scheme then M.pure (some .invalidParam, none)
  else match RelayProto.strchr 0x3f (uri.drop Nip47.scheme.length) with
    | none => M.pure (some .invalidParam, none)
    | some (k, query) =>
        if k.length ≠ 64 then M.pure (some .invalidParam, none)
        else
          M.bind (alloc A (.ints [])) fun self =>
          match self with
          | none => M.pure (some .memory, none)
          | some self =>
            match Nip47.hexDecode k 32 with
            | none => M.bind (freeConn ⟨self, none, 0, 0, none, none, []⟩) fun _ => M.pure (some .invalidParam, none)
            | some key =>
              M.bind (alloc A (.str query)) fun params =>
              match params with
              | none => M.bind (freeConn ⟨self, none, 0, 0, none, none, key⟩) fun _ => M.pure (some .memory, none)
              | some params =>
                M.bind (alloc A (.ptrs (List.replicate 4 none))) fun d =>
                match d with
                | none => M.bind (fail .memory params ⟨self, none, 0, 4, none, none, key⟩) fun r => M.pure (r.1, none)
                | some d =>
                  M.bind (loop A params ⟨self, some d, 0, 4, none, none, key⟩ (Text.tokens 0x26 query)) fun r =>
                  match r.1 with
                  | some e => M.pure (some e, none)
                  | none =>
                    M.bind (free (some params)) fun _ =>
                    if r.2.secret = none ∨ r.2.count = 0 then
                      M.bind (freeConn r.2) fun _ => M.pure (some .invalidParam, none)
                    else M.pure (none, some r.2)

end Conn
end Nostr.Own
