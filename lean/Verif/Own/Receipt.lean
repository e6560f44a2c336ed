import Verif.Own.Ev
import Verif.Own.Answers
import Verif.Zap.Model

/-!
# Memory of reading a zap receipt (src/zap.c, builds with cJSON)

`Verif/Zap` models the values. Here are the blocks: the copies of invoices and the events made of descriptions. Simplified: the texts of the
receipt's tags are values.
-/

namespace Nostr.Own.Receipt
open Nostr Nostr.Heap Nostr.Event Nostr.Own.Ev
open Nostr.Own.Answers (Var)

/-- The argument `nostr_event** zap_request`: NULL; or the address of a variable that is as it was, holds an event, or has been through a
call of `nostr_event_from_json` that failed (which may leave the address of a released event in it, event.c:479-575). -/
inductive Req where
  | unasked
  | asis
  | got (e : HEv) (v : Event)
  | gone
  deriving DecidableEq

/-- `zap_request` is not NULL. -/
def Req.asked : Req → Bool
  | .unasked => false
  | _ => true

/-- The variables of the caller; `pre` is the buffer for the preimage, NULL or its size and the text written to it. -/
structure Out where
  bolt : Var
  pre : Option (Nat × Option Bytes)
  req : Req
  deriving DecidableEq

/-- zap.c:158-163: the copy of the preimage, undefined if the buffer is too small. -/
def putPre (value : Bytes) (p : Nat × Option Bytes) : M (Nat × Option Bytes) :=
  if value.length ≤ 64 then
    if value.length + 1 ≤ p.1 then M.pure (p.1, some value) else fun _ => none
  else M.pure p

/-- zap.c:143-175: the loop over the tags. -/
def scan (A : Alloc) (P : Plat) (cfg : Option Config.Config) (grow : Event → List Bytes → Bool) : List (List Bytes) → Out → M (Option Err × Out)
  | [], o => M.pure (none, o)
  | t :: ts, o =>
    match t with
    | name :: value :: _ =>
      if name = c!"bolt11" ∧ o.bolt.isSome then
        M.bind (alloc A (.str value)) fun p =>
        match p with
        | none => M.pure (some .memory, { o with bolt := some none })
        | some a => scan A P cfg grow ts { o with bolt := some (some a) }
      else if name = c!"preimage" ∧ o.pre.isSome then
        match o.pre with
        | none => scan A P cfg grow ts o
        | some p => M.bind (putPre value p) fun p => scan A P cfg grow ts { o with pre := some p }
      else if name = c!"description" ∧ o.req.asked then
        M.bind (fromJson A P cfg grow value) fun r =>
        match r.1, r.2.2 with
        | none, some e => scan A P cfg grow ts { o with req := .got e r.2.1 }
        | none, none => fun _ => none
        | some x, _ =>
          M.bind (free (o.bolt.getD none)) fun _ => M.pure (some x, { o with bolt := o.bolt.map fun _ => none, req := .gone })
      else scan A P cfg grow ts o
    | _ => scan A P cfg grow ts o

/-- zap.c:137-203 `nostr_zap_parse_receipt`: the status, the variables, and the amount if one is written; `amount` says whether the
caller asks for it. -/
def parseReceipt (A : Alloc) (P : Plat) (cfg : Option Config.Config) (grow : Event → List Bytes → Bool) (amount : Bool) (e : Event) (o : Out) :
    M (Option Err × Out × Option Nat) :=
  if e.kind ≠ 9735 then M.pure (some .invalidParam, o, none)
  else M.bind (scan A P cfg grow e.tags o) fun r =>
  match r.1, amount, r.2.bolt with
  | none, true, some (some a) => M.bind (loadStr a) fun s => M.pure (none, r.2, Zap.amountOf s)
  | x, _, _ => M.pure (x, r.2, none)

/-- `nostr_event_destroy` of the event in the variable. -/
def Req.destroy : Req → M Unit
  | .got e _ => Ev.destroy e
  | _ => M.pure ()

/-- zap.c:241-243, 254-256, 259-260: the release before returning. -/
def release (o : Out) : M Unit := M.bind o.req.destroy fun _ => free (o.bolt.getD none)

/-- zap.c:205-269 `nostr_zap_verify`. -/
def verifyZap (A : Alloc) (C : Crypto) (P : Plat) (td : Int → Int) (fr : Int → Bytes) (cfg : Option Config.Config) (grow : Event → List Bytes → Bool)
    (receipt request : Event) (server : Bytes) : M (Res Unit) :=
  if receipt.kind ≠ 9735 ∨ request.kind ≠ 9734 then M.pure (.err .invalidEvent)
  else match Hex.keyToHex receipt.pubkey 65 with
  | .ub => M.pure .ub
  | .err x => M.pure (.err x)
  | .ok hex =>
    if server.length ≠ 64 ∨ Hex.ctMemcmp hex server ≠ 0 then M.pure (.err .invalidSignature)
    else M.bind (parseReceipt A P cfg grow true receipt ⟨some none, none, .asis⟩) fun r =>
    match r.1 with
    | some x => M.pure (.err x)
    | none =>
      match r.2.1.req with
      | .got _ q =>
        if Hex.ctMemcmp request.id q.id ≠ 0 then M.bind (release r.2.1) fun _ => M.pure (.err .invalidEvent)
        else if Zap.requestAmount request.tags > 0 ∧ r.2.2.getD 0 > 0 ∧ Zap.requestAmount request.tags ≠ r.2.2.getD 0 then
          M.bind (release r.2.1) fun _ => M.pure (.err .invalidEvent)
        else M.bind (release r.2.1) fun _ => M.pure (verify C (.cjson td fr) receipt)
      | _ => M.bind (free (r.2.1.bolt.getD none)) fun _ => M.pure (.err .invalidEvent)

end Nostr.Own.Receipt
