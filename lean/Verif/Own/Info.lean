import Verif.Heap
import Verif.Filter.Heap
import Verif.Nip47.Model

/-! # Memory of the wallet information event (src/nip47.c) -/

namespace Nostr.Own.Info
open Nostr Nostr.Heap

/-- An array of strings handed out: `char**` and its count, as the two variables of the caller hold them. -/
abbrev Out := Option Nat × Nat

/-- nip47.c:276-309, 318-355, 362-399: split a text at spaces into a new array; `out` is what the caller's
variables held before. After a failed copy the variables keep the address of the released array and the size it
was made with. -/
def wordsOut (A : Alloc) (out : Out) (s : Bytes) : M (Option Err × Out) :=
  M.bind (alloc A (.str s)) fun t =>
  match t with
  | none => M.pure (some .memory, out)
  | some t =>
    M.bind (alloc A (.ptrs (List.replicate (s.count 0x20 + 1) none))) fun d =>
    match d with
    | none => M.bind (free (some t)) fun _ => M.pure (some .memory, (none, s.count 0x20 + 1))
    | some d =>
      M.bind (Filter.Own.fillLoop A d (Nip47.words s) 0) fun b =>
      M.bind (free (some t)) fun _ =>
      if b then M.pure (none, (some d, (Nip47.words s).length))
      else M.pure (some .memory, (some d, s.count 0x20 + 1))

/-- nip47.c:313-355 and 357-399: one of the two tags; without it the array is NULL. -/
def tagOut (A : Alloc) (tags : List (List Bytes)) (name : Bytes) : M (Option Err × Out) :=
  match RelayProto.tagValue tags name with
  | none => M.pure (none, (none, 0))
  | some v => wordsOut A (none, 0) v

/-- nip47.c:266-413 `nostr_nip47_parse_info_event` with all arguments given, for an event of the right kind with
content `t`; `o` is what the variables of the caller held before the call. -/
def parse (A : Alloc) (t : Bytes) (tags : List (List Bytes)) (o : Out × Out × Out) : M (Option Err × Out × Out × Out) :=
  M.bind (wordsOut A o.1 t) fun c =>
  match c.1 with
  | some e => M.pure (some e, c.2, o.2)
  | none =>
    M.bind (tagOut A tags c!"notifications") fun n =>
    match n.1 with
    | some e => M.pure (some e, c.2, n.2, o.2.2)
    | none =>
      M.bind (tagOut A tags c!"encryption") fun x =>
      M.pure (x.1, c.2, n.2, x.2)

/-- What a caller does with one array: release every string and the array. -/
def release (o : Out) : M Unit := freeStrings o.1 o.2

end Nostr.Own.Info
