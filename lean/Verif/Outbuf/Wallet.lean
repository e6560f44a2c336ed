import Verif.Nip47.Model
import Verif.Nip47.Bare
import Verif.Double.Convert

/-!
# Outputs of reading a wallet's answers (nip47.c, nip47_commands.c)

The caller's variables with what they held before the call. Texts are values (the blocks of memory are in
`Verif/Own/Answers.lean`) and allocation succeeds.
-/

namespace Nostr.Outbuf
open Nostr Nostr.Event Nostr.Json

/-- The argument `char** x`: NULL, or a variable that holds NULL or the address of a text. -/
abbrev Var := Option (Option Bytes)

/-- `if (x) { … if (found) *x = strdup(found); }`. -/
def keep {α : Type} (found : Option α) (v : Option (Option α)) : Option (Option α) := v.map fun old => found.or old

/-- The output arguments of `nostr_nip47_parse_response_event`. -/
structure Answer where
  type : Var
  result : Var
  code : Var
  message : Var
  deriving DecidableEq, Repr

/-- nip47.c:556-656 `nostr_nip47_parse_response_event` with cJSON, with its outputs. -/
def responseTo (E : Nip47.Env) (r : Bytes → Json) (e : Event) (sk : Bytes) (o : Answer) : Res (Option Err × Answer) :=
  match Nip47.parseResponse E r e sk with
  | .ok x => .ok (none, ⟨keep x.type o.type, keep x.result o.result, keep x.code o.code, keep x.message o.message⟩)
  | .err x => .ok (some x, o)
  | .ub => .ub

/-- nip47.c:647-656: the same without cJSON; code and message are set to NULL. -/
def responseBareTo (E : Nip47.Env) (e : Event) (sk : Bytes) (o : Answer) : Res (Option Err × Answer) :=
  match Nip47.responseBare E e sk with
  | .ok x => .ok (none, ⟨o.type.map fun _ => x.type, o.result.map fun _ => x.result, o.code.map fun _ => x.code, o.message.map fun _ => x.message⟩)
  | .err x => .ok (some x, o)
  | .ub => .ub

/-- nip47.c:786-844 `nostr_nip47_parse_notification_event` with cJSON, with its outputs: type and text. -/
def notificationTo (E : Nip47.Env) (r : Bytes → Json) (e : Event) (sk : Bytes) (o : Var × Var) : Res (Option Err × (Var × Var)) :=
  match Nip47.parseNotification E r e sk with
  | .ok x => .ok (none, (keep x.1 o.1, keep x.2 o.2))
  | .err x => .ok (some x, o)
  | .ub => .ub

/-- nip47_commands.c:386-413 `nostr_nip47_parse_pay_invoice_response` with cJSON, with its outputs: preimage and fees (a number, `none` is
NULL). -/
def paidTo (real : Bytes → Int) (json : Bytes) (o : Var × Option Nat) : Res (Option Err × (Var × Option Nat)) :=
  match Nip47.parsePaid real json with
  | .ok x => .ok (none, (keep x.1 o.1, o.2.map fun old => x.2.getD old))
  | .err x => .ok (some x, o)
  | .ub => .ub

/-- nip47_commands.c:351-370 `nostr_nip47_parse_balance_response` with cJSON, with its output. -/
def balanceTo (real : Bytes → Int) (json : Bytes) (o : Nat) : Res (Option Err × Nat) :=
  match Nip47.parseBalance real json with
  | .ok n => .ok (none, n)
  | .err x => .ok (some x, o)
  | .ub => .ub

/-- The output arguments of `nostr_nip47_parse_info_response`. Of the array of methods an entry is `none` where nothing was stored. -/
structure Described where
  alias : Var
  color : Var
  pubkey : Var
  network : Var
  height : Option Int
  methods : Option (Option (List (Option Bytes)))
  deriving DecidableEq, Repr

/-- nip47_commands.c:456-507: what is stored from the document. -/
def describe (root : Json) (height : Option Int) (o : Described) : Described :=
  ⟨keep ((get root (c!"alias")).bind asStr) o.alias, keep ((get root (c!"color")).bind asStr) o.color,
    keep ((get root (c!"pubkey")).bind asStr) o.pubkey, keep ((get root (c!"network")).bind asStr) o.network,
    o.height.map fun old => height.getD old, keep (Nip47.methodsOf root) o.methods⟩

/-- nip47_commands.c:444-523 `nostr_nip47_parse_info_response` with cJSON, with its outputs. The height is converted only if it is
asked for. -/
def infoTo (json : Bytes) (o : Described) : Res (Option Err × Described) :=
  match parse json with
  | none => .ok (some .invalidParam, o)
  | some root => (if o.height.isSome then Double.blockHeight json else .ok none) >>= fun n => .ok (none, describe root n o)

/-- nip47_commands.c:510-523: the same without cJSON. -/
def infoBareTo (o : Described) : Res (Option Err × Described) :=
  .ok (none, ⟨o.alias.map fun _ => some (c!"wallet"), o.color.map fun _ => some (c!"#000000"),
    o.pubkey.map fun _ => some (List.replicate 64 0x30), o.network.map fun _ => some (c!"mainnet"), o.height.map fun _ => 800000,
    o.methods.map fun _ => some []⟩)

end Nostr.Outbuf
