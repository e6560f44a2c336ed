import Verif.Heap
import Verif.Own.Ev
import Verif.Nip26.Model

/-!
# Memory of delegations (src/nip26.c, build with secp256k1)

`Verif/Nip26` models the values. This file models which blocks a delegation consists of — the text of its conditions and
the array of allowed kinds — and what happens when memory runs out. Arguments (keys, the conditions text, the
event) are values; the caller's memory is not touched.
-/

namespace Nostr.Own.Deleg
open Nostr Nostr.Heap Nostr.Nip26

/-- include/nostr.h:1397-1404 `nostr_delegation_conditions`: the pointer `kinds` and `kind_count`; a `has_…` flag and
its value are one option. -/
structure HCond where
  kinds : Option Nat := none
  count : Nat := 0
  after : Option Int := none
  before : Option Int := none
  deriving DecidableEq, Repr

/-- include/nostr.h:1409-1414 `nostr_delegation`: the structure belongs to the caller. The default is the structure
filled with zeros. -/
structure HDel where
  delegator : Bytes := List.replicate 32 0
  text : Option Nat := none
  token : Bytes := List.replicate 64 0
  parsed : HCond := {}
  deriving DecidableEq, Repr

/-- nip26.c:105-111, relay_nip11.c:75-83: `realloc` of an array of numbers to `n + 1` entries, and the last of them
written. Entries that do not exist are out of bounds. NULL leaves the old block; the new block may have the old
address. -/
def pushInt (A : Alloc) (p : Option Nat) (n : Nat) (k : Int) : M (Option Nat) := fun h =>
  match p with
  | none => if n = 0 then alloc A (.ints [k]) h else none
  | some a => match h.mem a with
    | some (.ints l) =>
        if l.length = n then
          match A (upd h.mem a none) h.tick with
          | none => some (none, ⟨h.mem, h.tick + 1⟩)
          | some b => some (some b, ⟨upd (upd h.mem a none) b (some (.ints (l ++ [k]))), h.tick + 1⟩)
        else none
    | _ => none

/-- nip26.c:57-62 `cleanup_conditions`, and `return 0`. -/
def fail (c : HCond) : M (Bool × HCond) := M.bind (free c.kinds) fun _ => M.pure (false, { c with kinds := none, count := 0 })

/-- nip26.c:64-155 `parse_delegation_conditions` from the loop on; the first argument is the number of iterations left,
the last `parsed`. The result says whether 1 is returned. -/
def loop (A : Alloc) : Nat → Bytes → HCond → Nat → M (Bool × HCond)
  | _, [], c, n => if n = 0 then fail c else M.pure (true, c)
  | 0, _ :: _, c, _ => fail c
  | fuel + 1, b :: s, c, n =>
      match (b :: s).dropWhile (· == 0x26) with
      | [] => if n = 0 then fail c else M.pure (true, c)
      | d :: t =>
        let p := d :: t
        if p.take 5 = c!"kind=" then
          match kindNum (p.drop 5) with
          | none => fail c
          | some (k, rest) =>
            if c.count ≥ 256 then fail c
            else M.bind (pushInt A c.kinds c.count k) fun q =>
              match q with
              | none => fail c
              | some q => loop A fuel rest { c with kinds := some q, count := c.count + 1 } (n + 1)
        else if p.take 11 = c!"created_at>" then
          match timeNum (p.drop 11) with
          | none => fail c
          | some (t, rest) => loop A fuel rest { c with after := some t } (n + 1)
        else if p.take 11 = c!"created_at<" then
          match timeNum (p.drop 11) with
          | none => fail c
          | some (t, rest) => loop A fuel rest { c with before := some t } (n + 1)
        else fail c

/-- nip26.c:64-155 `parse_delegation_conditions`. The empty text is refused before anything is written (line 69); the
structure is zero then, in both callers. -/
def parse (A : Alloc) (s : Bytes) : M (Bool × HCond) :=
  if s = [] then M.pure (false, {}) else loop A 100 s {} 0

/-- nip26.c:157-182 `build_delegation_hash` with its temporary text. -/
def digest (A : Alloc) (C : Event.Crypto) (delegatee conditions : Bytes) : M (Res Bytes) :=
  if conditions.length > 4096 then M.pure (.err .invalidParam)
  else M.bind (alloc A Ev.blob) fun t =>
    match t with
    | none => M.pure (.err .memory)
    | some t => M.bind (free (some t)) fun _ => M.pure (Nip26.digest C delegatee conditions)

/-- nip26.c:268-278: the copy of the conditions and their parts; on failure the structure is wiped. -/
def keep (A : Alloc) (pk token conditions : Bytes) : M (Option Err × HDel) :=
  M.bind (alloc A (.str conditions)) fun t =>
  match t with
  | none => M.pure (some .memory, {})
  | some t => M.bind (parse A conditions) fun r =>
      if r.1 then M.pure (none, ⟨pk, some t, token, r.2⟩)
      else M.bind (free (some t)) fun _ => M.pure (some .invalidParam, {})

/-- nip26.c:184-279 `nostr_delegation_create`: the status and the structure afterwards; `rand` is the result of the
random generator. The structure is zeroed first, so its contents on entry do not matter. After a failure in the
middle (lines 241-265) it holds parts of the public key; these are not pointers and are left out here. -/
def create (A : Alloc) (C : Event.Crypto) (rand : Option Bytes) (sk delegatee conditions : Bytes) : M (Option Err × HDel) :=
  M.bind (digest A C delegatee conditions) fun h =>
  match h with
  | .ub => fun _ => none
  | .err x => M.pure (some x, {})
  | .ok h => match C.pubOf sk with
    | none => M.pure (some .invalidKey, {})
    | some pk => match rand with
      | none => M.pure (some .memory, {})
      | some r => match C.sign sk h r with
        | none => M.pure (some .invalidSignature, {})
        | some s => keep A pk s conditions

/-- nip26.c:386-419: reading the delegation tag. Parts of the keys that stay after a failure are left out, as in
`create`; the parsed times stay, as in the code. -/
def readTag (A : Alloc) (delegator conditions token : Bytes) : M (Option Err × HDel) :=
  if conditions.length = 0 ∨ conditions.length > 4096 then M.pure (some .invalidEvent, {})
  else if !isValidHex delegator 64 then M.pure (some .invalidEvent, {})
  else if !isValidHex token 128 then M.pure (some .invalidEvent, {})
  else match Hex.hexDecode delegator 32 with
    | none => M.pure (some .invalidEvent, {})
    | some pk => match Hex.hexDecode token 64 with
      | none => M.pure (some .invalidEvent, {})
      | some tk =>
        M.bind (alloc A (.str conditions)) fun t =>
        match t with
        | none => M.pure (some .memory, {})
        | some t => M.bind (parse A conditions) fun r =>
            if r.1 then M.pure (none, ⟨pk, some t, tk, r.2⟩)
            else M.bind (free (some t)) fun _ => M.pure (some .invalidEvent, { parsed := r.2 })

/-- nip26.c:381-423: the tag loop. -/
def getLoop (A : Alloc) : List (List Bytes) → M (Option Err × HDel)
  | [] => M.pure (some .notFound, {})
  | (name :: a :: b :: c :: _) :: rest => if name = c!"delegation" then readTag A a b c else getLoop A rest
  | _ :: rest => getLoop A rest

/-- nip26.c:373-424 `nostr_event_get_delegation`: the status and the structure afterwards. -/
def get (A : Alloc) (e : Event.Event) : M (Option Err × HDel) := getLoop A e.tags

/-- nip26.c:447-456 `nostr_delegation_free`: the structure afterwards. -/
def destroy (d : HDel) : M HDel :=
  M.bind (free d.text) fun _ => M.bind (free d.parsed.kinds) fun _ => M.pure { delegator := List.replicate 32 0, token := List.replicate 64 0 }

/-- nip26.c:281-317 `nostr_delegation_verify`: the conditions are read from memory. -/
def verify (A : Alloc) (C : Event.Crypto) (d : HDel) (delegatee : Bytes) : M (Option Err) :=
  match d.text with
  | none => M.pure (some .invalidParam)
  | some t => M.bind (loadStr t) fun s =>
      M.bind (digest A C delegatee s) fun h =>
      match h with
      | .ub => fun _ => none
      | .err x => M.pure (some x)
      | .ok h =>
        if !C.validPub d.delegator then M.pure (some .invalidKey)
        else if !C.verify d.delegator h d.token then M.pure (some .invalidSignature)
        else M.pure none

/-- nip26.c:319-328 `kind_allowed`: the entries are read from memory. -/
def kindAllowed (c : HCond) (kind : Nat) : M Bool := fun h =>
  if c.count = 0 then some (true, h)
  else match c.kinds with
    | none => none
    | some a => match h.mem a with
      | some (.ints l) => if c.count ≤ l.length then some ((l.take c.count).any (· == (kind : Int)), h) else none
      | _ => none

/-- nip26.c:330-349 `nostr_delegation_check_conditions`. -/
def check (d : HDel) (kind : Nat) (createdAt : Int) : M (Option Err) :=
  M.bind (kindAllowed d.parsed kind) fun ok =>
  if !ok then M.pure (some .invalidEvent)
  else if d.parsed.after.any (fun t => decide (createdAt ≤ t)) then M.pure (some .invalidEvent)
  else if d.parsed.before.any (fun t => decide (createdAt ≥ t)) then M.pure (some .invalidEvent)
  else M.pure none

/-- nip26.c:426-445 `nostr_event_verify_delegation`. -/
def verifyDelegation (A : Alloc) (C : Event.Crypto) (e : Event.Event) : M (Option Err) :=
  M.bind (get A e) fun r =>
  match r.1 with
  | some x => M.pure (some x)
  | none =>
    M.bind (verify A C r.2 e.pubkey) fun v =>
    match v with
    | some x => M.bind (destroy r.2) fun _ => M.pure (some x)
    | none => M.bind (check r.2 e.kind e.createdAt) fun c => M.bind (destroy r.2) fun _ => M.pure c

end Nostr.Own.Deleg
