import Verif.Own.Tree
import Verif.Nip47.Model

/-!
# Memory of the answers of a wallet (src/nip47.c, src/nip47_commands.c, builds with cJSON)

`Verif/Nip47` models the values. Here are the blocks: the decrypted text, the tree made of it and the texts handed out. Simplified: the
tree that `cJSON_Parse` builds is one block, and the memory inside the decryption is that of `Verif/Own/Crypt.lean`, here one block.
-/

namespace Nostr.Own.Answers
open Nostr Nostr.Heap Nostr.Json Nostr.Nip47

/-- An argument `char** p`: NULL, or the address of a variable, with what the variable holds. -/
abbrev Var := Option (Option Nat)

/-- nip47.c:614-617 and its likes, `if (p) { … if (item && cJSON_IsString(item)) *p = strdup(item->valuestring); }`. -/
def dup (A : Alloc) (o : Option Bytes) (v : Var) : M Var :=
  match v, o with
  | some _, some s => M.bind (alloc A (.str s)) fun p => M.pure (some p)
  | _, _ => M.pure v

/-- nip47.c:622-625 and its likes, `if (p) { … if (item) *p = cJSON_PrintUnformatted(item); }`. -/
def reprinted (A : Alloc) (g : Bytes → Nat) (r : Bytes → Json) (o : Option Json) (v : Var) : M Var :=
  match v, o with
  | some _, some j => M.bind (Tree.print A g false (some (mapNum r j))) fun p => M.pure (some p)
  | _, _ => M.pure v

/-- `cJSON_Parse(s)`, what is done with the tree, and `cJSON_Delete`; `bad` if there is no tree. -/
def parsed {α} (A : Alloc) (s : Bytes) (f : Json → M α) (bad : α) : M α :=
  match parse s with
  | none => M.pure bad
  | some root => M.bind (alloc A (.str s)) fun b =>
    match b with
    | none => M.pure bad
    | some b => M.bind (f root) fun x => M.bind (free (some b)) fun _ => M.pure x

/-- The decrypted text in its block, while `f` works on it; `no` without memory for it. -/
def opened {α} (A : Alloc) (d : Bytes) (f : Bytes → M α) (no : α) : M α :=
  M.bind (alloc A (.str d)) fun p =>
  match p with
  | none => M.pure no
  | some p => M.bind (f (cstr d)) fun x => M.bind (free (some p)) fun _ => M.pure x

/-- The variables for a response. -/
structure Outs where
  type : Var
  result : Var
  code : Var
  message : Var
  deriving DecidableEq, Repr

/-- nip47.c:613-644. -/
def replyOut (A : Alloc) (g : Bytes → Nat) (r : Bytes → Json) (o : Outs) (root : Json) : M (Option Err × Outs) :=
  M.bind (dup A ((get root (c!"result_type")).bind asStr) o.type) fun a =>
  M.bind (reprinted A g r (get root (c!"result")) o.result) fun b =>
  M.bind (dup A (((get root (c!"error")).bind (get · (c!"code"))).bind asStr) o.code) fun c =>
  M.bind (dup A (((get root (c!"error")).bind (get · (c!"message"))).bind asStr) o.message) fun d =>
  M.pure (none, ⟨a, b, c, d⟩)

/-- nip47.c:556-656 `nostr_nip47_parse_response_event`: the status, and the variables afterwards. -/
def parseResponse (A : Alloc) (E : Nip47.Env) (g : Bytes → Nat) (r : Bytes → Json) (e : Event.Event) (sk : Bytes) (o : Outs) : M (Option Err × Outs) :=
  match openResponse E e sk with
  | .ub => fun _ => none
  | .err x => M.pure (some x, o)
  | .ok d => opened A d (fun s => parsed A s (replyOut A g r o) (some .invalidParam, o)) (some .memory, o)

/-- nip47.c:790-814: decryption of a notification. -/
def openNotification (E : Nip47.Env) (e : Event.Event) (sk : Bytes) : Res Bytes :=
  if e.kind ≠ 23197 ∧ e.kind ≠ 23196 then .err .invalidParam
  else if e.kind = 23196 then .err .notSupported
  else match e.content with
    | none => .err .invalidParam
    | some t => Nip44.decrypt E.nc E.b64 E.cfg sk e.pubkey t

/-- nip47.c:823-836. -/
def noteOut (A : Alloc) (g : Bytes → Nat) (r : Bytes → Json) (o : Var × Var) (root : Json) : M (Option Err × Var × Var) :=
  M.bind (dup A ((get root (c!"notification_type")).bind asStr) o.1) fun a =>
  M.bind (reprinted A g r (get root (c!"notification")) o.2) fun b => M.pure (none, a, b)

/-- nip47.c:786-844 `nostr_nip47_parse_notification_event`. -/
def parseNotification (A : Alloc) (E : Nip47.Env) (g : Bytes → Nat) (r : Bytes → Json) (e : Event.Event) (sk : Bytes) (o : Var × Var) :
    M (Option Err × Var × Var) :=
  match openNotification E e sk with
  | .ub => fun _ => none
  | .err x => M.pure (some x, o)
  | .ok d => opened A d (fun s => parsed A s (noteOut A g r o) (some .invalidParam, o)) (some .memory, o)

/-- nip47_commands.c:386-413 `nostr_nip47_parse_pay_invoice_response`: the status, the variable for the preimage and the fees (`none`: the
variable is left alone). -/
def parsePaid (A : Alloc) (real : Bytes → Int) (json : Bytes) (o : Var) : M (Option Err × Var × Option Nat) :=
  parsed A json (fun root => M.bind (dup A ((get root (c!"preimage")).bind asStr) o) fun p =>
    match (get root (c!"fees_paid")).bind asNum with
    | none => M.pure (none, p, none)
    | some t => match toU64 real t with
      | .ok n => M.pure (none, p, some n)
      | _ => fun _ => none) (some .invalidParam, o, none)

/-- nip47_commands.c:499-504: a copy of every entry that is a text; the others are not written. -/
def fill (A : Alloc) (d : Nat) : List Json → Nat → M Unit
  | [], _ => M.pure ()
  | j :: l, i => match asStr j with
    | none => fill A d l (i + 1)
    | some s => M.bind (alloc A (.str s)) fun p => M.bind (storePtr d i p) fun _ => fill A d l (i + 1)

/-- nip47_commands.c:493-507: the array of methods; the count is stored before the array is there. `junk` is what new memory holds. -/
def methodsOut (A : Alloc) (junk : Nat → List (Option Nat)) (o : Option (List Json)) (v : Option (Option Nat × Nat)) : M (Option (Option Nat × Nat)) :=
  match v, o with
  | some _, some l => M.bind (alloc A (.ptrs (junk l.length))) fun d =>
    match d with
    | none => M.pure (some (none, l.length))
    | some d => M.bind (fill A d l 0) fun _ => M.pure (some (some d, l.length))
  | _, _ => M.pure v

/-- The variables for the answer to `get_info`, without the block height. -/
structure InfoOuts where
  alias : Var
  color : Var
  pubkey : Var
  network : Var
  methods : Option (Option Nat × Nat)
  deriving DecidableEq, Repr

/-- nip47_commands.c:454-507, without the block height. -/
def infoOut (A : Alloc) (junk : Nat → List (Option Nat)) (o : InfoOuts) (root : Json) : M (Option Err × InfoOuts) :=
  M.bind (dup A ((get root (c!"alias")).bind asStr) o.alias) fun a =>
  M.bind (dup A ((get root (c!"color")).bind asStr) o.color) fun b =>
  M.bind (dup A ((get root (c!"pubkey")).bind asStr) o.pubkey) fun c =>
  M.bind (dup A ((get root (c!"network")).bind asStr) o.network) fun d =>
  M.bind (methodsOut A junk ((get root (c!"methods")).bind asArr) o.methods) fun m => M.pure (none, ⟨a, b, c, d, m⟩)

/-- nip47_commands.c:444-523 `nostr_nip47_parse_info_response` with `block_height` NULL. -/
def parseInfoResponse (A : Alloc) (junk : Nat → List (Option Nat)) (json : Bytes) (o : InfoOuts) : M (Option Err × InfoOuts) :=
  parsed A json (infoOut A junk o) (some .invalidParam, o)

end Nostr.Own.Answers
