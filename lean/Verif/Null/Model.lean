import Verif.Basic

/-! # Pointer arguments that are NULL

What a public function does with its pointer arguments when some of them are NULL: the tests for NULL it makes before
and between its uses, and the uses themselves. Nothing else of the functions is in this model. A return for any other
reason (a bad length, a failed allocation, a wrong state) is left out and the model goes on, so that the run of the
model meets every test and every use that any run of the function can meet. -/

namespace Nostr.Null

/-- What a refused call returns: a code of `nostr_error_t` or of `nostr_relay_error_t` (include/nostr.h:66-80,
include/nostr_relay_protocol.h:23-45), a NULL pointer, the count 0, `false`, -1 (src/utils.c:54-66), nothing (a `void`
function), or `NOSTR_CLIENT_MSG_UNKNOWN` (src/relay_message.c:506-510). -/
inductive Ans
  | code (e : Err)
  | null
  | zero
  | no
  | minusOne
  | nothing
  | unknown
  deriving DecidableEq, Repr

/-- One step of a function, as to its arguments (numbered from 0).

* `refuse ps ws a` is `if (!p || !q || …) return a;` — before the return each of `ws` is written if it is not NULL, as in
  src/relay_filter.c:485-494, src/relay_protocol.c:848-853.
* `refuseAll ps a` is `if (!p && !q && …) return a;`, as in src/nip10.c:179, src/nip47_commands.c:109.
* `finish ps` is `if (!p || …) return NOSTR_OK;`, as in src/nip05.c:167-275, src/relay_nip11.c:43-66.
* `use p` reads or writes through `p`, or gives it to a library function that does.
* `when cs ps` uses each of `ps` if none of `cs` is NULL, as in `if (out_len) *out_len = len;`. -/
inductive Op
  | refuse (ps ws : List Nat) (a : Ans)
  | refuseAll (ps : List Nat) (a : Ans)
  | finish (ps : List Nat)
  | use (p : Nat)
  | when (cs ps : List Nat)
  deriving DecidableEq, Repr

/-- A public function: its pointer arguments by name, the arguments it needs (of each group at least one), and what it
does with them. -/
structure Fn where
  name : String
  args : List String
  needs : List (List Nat)
  byHand : Bool
  body : List Op

/-- How a call ends as far as NULL is concerned: refused, done (with or without success, for other reasons), or a
read or write through NULL, which is undefined. -/
inductive End
  | refused (a : Ans)
  | done
  | crash
  deriving DecidableEq, Repr

/-- The run of a function; `n p` says that the argument `p` is NULL. -/
def run (n : Nat → Bool) : List Op → End
  | [] => .done
  | .refuse ps _ a :: rest => if ps.any n then .refused a else run n rest
  | .refuseAll ps a :: rest => if ps.all n then .refused a else run n rest
  | .finish ps :: rest => if ps.any n then .done else run n rest
  | .use p :: rest => if n p then .crash else run n rest
  | .when cs ps :: rest => if !cs.any n && ps.any n then .crash else run n rest

end Nostr.Null
