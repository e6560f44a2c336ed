import Verif.Outbuf.Model
import Verif.Zap.Model

/-!
# Outputs of the zap calls (zap.c)

The caller's variables and buffers are followed with what they held before the call, also when the call does not write them.
Texts and events are values here (the blocks of memory are in `Verif/Own/Receipt.lean`), allocation succeeds and the build has
cJSON (`b`).
-/

namespace Nostr.Outbuf
open Nostr Nostr.Event

/-- The output arguments of `nostr_zap_validate_lnurl`; `none` is NULL. -/
structure Server where
  pubkey : Buf
  allows : Option Bool
  deriving DecidableEq, Repr

/-- zap.c:112-135 `nostr_zap_validate_lnurl` with its outputs, which no line of it mentions. -/
def lnurlTo (lnurl : Bytes) (o : Server) : Res (Option Err × Server) :=
  match Zap.validateLnurl lnurl with
  | .ok () => .ok (none, o)
  | .err x => .ok (some x, o)
  | .ub => .ub

/-- The output arguments of `nostr_zap_parse_receipt`; the outer `none` is NULL, the inner a variable that holds NULL. -/
structure Receipt where
  amount : Option Nat
  bolt11 : Option (Option Bytes)
  preimage : Buf
  request : Option (Option Event)
  deriving DecidableEq, Repr

/-- zap.c:156-162: the preimage is stored if it has at most 64 bytes. -/
def storePreimage (m value : Bytes) : Res Bytes :=
  if value.length ≤ 64 then memcpy m value >>= fun a => put a value.length 0 else .ok m

/-- zap.c:143-175: the loop over the tags. -/
def receiptLoop (P : Plat) (b : Build) (cfg : Option Config.Config) : List (List Bytes) → Receipt → Res (Option Err × Receipt)
  | [], o => .ok (none, o)
  | t :: ts, o =>
    match t with
    | name :: value :: _ =>
      if name = c!"bolt11" ∧ o.bolt11.isSome then receiptLoop P b cfg ts { o with bolt11 := some (some value) }
      else if name = c!"preimage" ∧ o.preimage.isSome then
        storePreimage (o.preimage.getD []) value >>= fun m => receiptLoop P b cfg ts { o with preimage := some m }
      else if name = c!"description" ∧ o.request.isSome then
        match fromJson P b cfg value with
        | .ok q => receiptLoop P b cfg ts { o with request := some (some q) }
        | .err x => .ok (some x, { o with bolt11 := o.bolt11.map fun _ => none })
        | .ub => .ub
      else receiptLoop P b cfg ts o
    | _ => receiptLoop P b cfg ts o

/-- zap.c:177-200: the amount is written if the caller asks for amount and invoice, and the variable for the invoice then
holds one that names an amount. -/
def storeAmount (o : Receipt) : Receipt :=
  { o with amount := o.amount.map fun old => ((o.bolt11.join).bind Zap.amountOf).getD old }

/-- zap.c:137-203 `nostr_zap_parse_receipt`. -/
def receiptTo (P : Plat) (b : Build) (cfg : Option Config.Config) (e : Event) (o : Receipt) : Res (Option Err × Receipt) :=
  if e.kind ≠ 9735 then .ok (some .invalidParam, o)
  else receiptLoop P b cfg e.tags o >>= fun r =>
    match r.1 with
    | none => .ok (none, storeAmount r.2)
    | some x => .ok (some x, r.2)

end Nostr.Outbuf
