import Verif.Nip47.Model
import Verif.Zap.Model

/-!
# Model: a wallet's answers in the build without cJSON (src/nip47.c, src/nip47_commands.c)

Memory allocation succeeds.
-/

namespace Nostr.Nip47
open Nostr Nostr.Event

/-- nip47_commands.c:372-380: `nostr_nip47_parse_balance_response` without cJSON. -/
def balanceBare (json : Bytes) : Res Nat :=
  match Zap.strstr (c!"\"balance\":") json with
  | none => .err .invalidParam
  | some p => .ok (Num.strtoul (p.drop 10)).1

/-- nip47_commands.c:416-428: the preimage without cJSON, everything up to the next quotation mark; `none` leaves the variable alone. -/
def preimageBare (json : Bytes) : Option Bytes :=
  (Zap.strstr (c!"\"preimage\":\"") json).bind fun p =>
    if 0x22 ∈ p.drop 12 then some ((p.drop 12).takeWhile (· != 0x22)) else none

/-- nip47_commands.c:431-438: the fees without cJSON. -/
def feesBare (json : Bytes) : Option Nat :=
  (Zap.strstr (c!"\"fees_paid\":") json).map fun p => (Num.strtoul (p.drop 12)).1

/-- nip47_commands.c:414-439: `nostr_nip47_parse_pay_invoice_response` without cJSON. -/
def paidBare (json : Bytes) : Res (Option Bytes × Option Nat) := .ok (preimageBare json, feesBare json)

/-- What `nostr_nip47_parse_info_response` stores. -/
structure Info where
  alias : Bytes
  color : Bytes
  pubkey : Bytes
  network : Bytes
  height : Nat
  methods : List Bytes
  deriving DecidableEq, Repr

/-- nip47_commands.c:510-519: `nostr_nip47_parse_info_response` without cJSON; the text is not looked at. -/
def infoBare (_json : Bytes) : Res Info :=
  .ok ⟨c!"wallet", c!"#000000", List.replicate 64 0x30, c!"mainnet", 800000, []⟩

/-- nip47.c:647-656: `nostr_nip47_parse_response_event` without cJSON. Code and message are set to NULL. -/
def responseBare (E : Env) (e : Event) (sk : Bytes) : Res Reply :=
  openResponse E e sk >>= fun _ => .ok ⟨some (c!"unknown"), some (c!"{}"), none, none⟩

/-- nip47.c:786-843: `nostr_nip47_parse_notification_event` without cJSON. -/
def notificationBare (E : Env) (e : Event) (sk : Bytes) : Res (Option Bytes × Option Bytes) :=
  if e.kind ≠ 23197 ∧ e.kind ≠ 23196 then .err .invalidParam
  else if e.kind = 23196 then .err .notSupported
  else match e.content with
    | none => .err .invalidParam
    | some t => Nip44.decrypt E.nc E.b64 E.cfg sk e.pubkey t >>= fun _ => .ok (some (c!"unknown"), some (c!"{}"))

end Nostr.Nip47
