import Verif.Session.Model

/-! # Vocabulary for wallet sessions -/

namespace Nostr.Session.Spec
open Nostr Nostr.Session

/-- A request to spend: time, method, amount. -/
structure Ask where
  now : Int
  method : Bytes
  amount : Nat
  deriving DecidableEq, Repr

/-- The session after the requests, latest first. -/
def after (s : Slot) : List Ask → Slot
  | [] => s
  | a :: past => (check a.now a.method a.amount (after s past)).1

/-- The requests with the answers, latest first. -/
def answers (s : Slot) : List Ask → List (Ask × Bool)
  | [] => []
  | a :: past => (a, decide ((check a.now a.method a.amount (after s past)).2 = .ok)) :: answers s past

/-- The first permission, by position, that names the method or is the wildcard. -/
def covering (names : List Bytes) (method : Bytes) : Option Nat :=
  names.findIdx? fun n => decide (n = method) || decide (n = c!"*")

/-- The answered requests that draw on permission `i` of a session that ends at `expires`. -/
def drawing (names : List Bytes) (expires : Int) (i : Nat) (h : List (Ask × Bool)) : List (Ask × Bool) :=
  h.filter fun q => decide (covering names q.1.method = some i) && decide (q.1.now ≤ expires)

/-- End of the current budget period and the total approved in it. A period lasts `interval` seconds; the next one
begins with the first request after its end. -/
def period (granted : Int) (interval : Nat) : List (Ask × Bool) → Int × Nat
  | [] => (granted + interval, 0)
  | (a, yes) :: past =>
      let q := period granted interval past
      let q := if q.1 < a.now then (a.now + interval, 0) else q
      (q.1, if yes then q.2 + a.amount else q.2)

/-- What has been approved in the period that a request made `now` falls into. -/
def spent (granted : Int) (interval : Nat) (past : List (Ask × Bool)) (now : Int) : Nat :=
  if (period granted interval past).1 < now then 0 else (period granted interval past).2

/-- Calls on the table, in order. -/
inductive Ev
  | create (now : Int) (timeout : Nat) (id : Option Bytes) (conn : Nat)
  | call (max : Nat) (now : Int) (id : Bytes) (r : Req)

/-- The table and the results after the calls. -/
def run : Table → List Ev → Res (Table × List (Ev × Ret))
  | t, [] => .ok (t, [])
  | t, .create now to id c :: es =>
      run (create now to id c t).1 es >>= fun q => .ok (q.1, (.create now to id c, (create now to id c t).2) :: q.2)
  | t, .call max now id r :: es =>
      call max now id r t >>= fun p => run p.1 es >>= fun q => .ok (q.1, (.call max now id r, p.2) :: q.2)

/-- The times at which sessions are asked for. -/
def createTimes (es : List Ev) : List Int :=
  es.filterMap fun e => match e with | .create now _ _ _ => some now | _ => none

/-- The sessions created in second `sec`. -/
def createdAt (sec : Int) (rs : List (Ev × Ret)) : Nat :=
  (rs.filter fun q => match q with | (.create now _ _ _, .ok) => decide (now = sec) | _ => false).length

end Nostr.Session.Spec
