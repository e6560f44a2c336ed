import Verif.Heap
import Verif.Event.Model
import Verif.Msg.Model
import Verif.Nip11.Model
import Verif.Nip47.Model
import Verif.Nip46.Model

/-!
# Memory of the texts written with cJSON

The library builds a tree item by item and prints it. Each item is a block, each string and each member name a block more, and the
printer needs a buffer; any of these may be refused. The calls that add an item (`cJSON_AddItemToArray`, `cJSON_AddStringToObject`, …)
report this by their result, which the code in /repo never looks at. The functions of cJSON below (`create` to `print`) follow cJSON 1.7
and belong to the trusted base, like `Verif/Json/Model.lean`. The links between items are not in the heap: an item is given by its value
and by the blocks that `cJSON_Delete` would release.
-/

namespace Nostr.Own.Tree
open Nostr Nostr.Heap Nostr.Json

/-- `free` of each. -/
def freeAll : List Nat → M Unit
  | [] => M.pure ()
  | a :: l => M.bind (free (some a)) fun _ => freeAll l

/-- What building an item comes to: the function gives up (returns an error), the item is NULL, or it is there, with its blocks. -/
inductive Made
  | abort
  | null
  | item (blocks : List Nat) (value : Json)

/-- `cJSON_CreateNumber`, `cJSON_CreateBool`, `cJSON_CreateArray`, `cJSON_CreateObject`. -/
def create (A : Alloc) : M (Option Nat) := alloc A (.str [])

/-- `cJSON_CreateString`: without memory for the copy the item is deleted again. -/
def createText (A : Alloc) (s : Bytes) : M Made :=
  M.bind (create A) fun n =>
  match n with
  | none => M.pure .null
  | some n => M.bind (alloc A (.str s)) fun c =>
    match c with
    | none => M.bind (free (some n)) fun _ => M.pure .null
    | some c => M.pure (.item [n, c] (.str s))

/-- Is the item added by `cJSON_AddStringToObject`, `cJSON_AddNumberToObject` or `cJSON_AddBoolToObject`, which delete it if it cannot be
added? Arrays and objects are added by `cJSON_AddItemToObject`, which does not. -/
def scalar : Json → Bool
  | .arr _ => false
  | .obj _ => false
  | _ => true

/-- `cJSON_AddItemToObject` and its relatives: the object's blocks (`none`: it is NULL) afterwards, and whether the item is in it. -/
def attach (A : Alloc) (c : Option (List Nat)) (key : Bytes) (j : Json) (bs : List Nat) : M (Option (List Nat) × Bool) :=
  match c with
  | none => M.bind (if scalar j then freeAll bs else M.pure ()) fun _ => M.pure (none, false)
  | some cs => M.bind (alloc A (.str key)) fun k =>
    match k with
    | none => M.bind (if scalar j then freeAll bs else M.pure ()) fun _ => M.pure (some cs, false)
    | some k => M.pure (some (cs ++ k :: bs), true)

mutual
/-- Building a tree: the item is created, then what it contains, each part being added when it is complete. `chk` tells under which member
names a missing array or object makes the function give up; what has been built and not yet added is then lost. -/
def build (A : Alloc) (chk : Bytes → Bool) (key : Bytes) : Json → M Made
  | .str s => createText A s
  | .arr l => M.bind (create A) fun n =>
      if n.isNone && chk key then M.pure .abort
      else M.bind (elems A chk key (n.map fun n => [n]) l) fun r =>
        M.pure (if r.1 then .abort else match r.2.1 with | none => .null | some bs => .item bs (.arr r.2.2))
  | .obj m => M.bind (create A) fun n =>
      if n.isNone && chk key then M.pure .abort
      else M.bind (members A chk (n.map fun n => [n]) m) fun r =>
        M.pure (if r.1 then .abort else match r.2.1 with | none => .null | some bs => .item bs (.obj r.2.2))
  | .null => M.bind (create A) fun n => M.pure (match n with | none => .null | some n => .item [n] .null)
  | .tru => M.bind (create A) fun n => M.pure (match n with | none => .null | some n => .item [n] .tru)
  | .fls => M.bind (create A) fun n => M.pure (match n with | none => .null | some n => .item [n] .fls)
  | .num t => M.bind (create A) fun n => M.pure (match n with | none => .null | some n => .item [n] (.num t))
/-- `cJSON_AddItemToArray(array, …)` for each: whether the function gives up, the blocks of the array, its elements. -/
def elems (A : Alloc) (chk : Bytes → Bool) (key : Bytes) (c : Option (List Nat)) : List Json → M (Bool × Option (List Nat) × List Json)
  | [] => M.pure (false, c, [])
  | j :: l => M.bind (build A chk key j) fun r =>
      match r with
      | .abort => M.pure (true, c, [])
      | .null => elems A chk key c l
      | .item bs v => match c with
        | none => elems A chk key none l
        | some cs => M.bind (elems A chk key (some (cs ++ bs)) l) fun r => M.pure (r.1, r.2.1, v :: r.2.2)
/-- `cJSON_Add…ToObject(object, name, …)` for each. -/
def members (A : Alloc) (chk : Bytes → Bool) (c : Option (List Nat)) : List (Bytes × Json) → M (Bool × Option (List Nat) × List (Bytes × Json))
  | [] => M.pure (false, c, [])
  | (k, j) :: m => M.bind (build A chk k j) fun r =>
      match r with
      | .abort => M.pure (true, c, [])
      | .null => members A chk c m
      | .item bs v => M.bind (attach A c k j bs) fun q =>
        M.bind (members A chk q.1 m) fun r => M.pure (r.1, r.2.1, if q.2 then (k, v) :: r.2.2 else r.2.2)
end

/-- Growing the printer's buffer `n` times by `realloc`; if that fails the buffer is released. -/
def grow (A : Alloc) : Nat → Nat → M (Option Nat)
  | 0, b => M.pure (some b)
  | n + 1, b => M.bind (alloc A (.str [])) fun c =>
    M.bind (free (some b)) fun _ =>
    match c with
    | none => M.pure none
    | some c => grow A n c

/-- `cJSON_PrintUnformatted`, `cJSON_Print`: a buffer that grows (`g` tells how often for a text) and is cut to size at the end; of NULL
there is no text. -/
def print (A : Alloc) (g : Bytes → Nat) (fmt : Bool) (v : Option Json) : M (Option Nat) :=
  M.bind (alloc A (.str [])) fun b =>
  match b with
  | none => M.pure none
  | some b => match v with
    | none => M.bind (free (some b)) fun _ => M.pure none
    | some v => M.bind (grow A (g (Json.print fmt 0 v)) b) fun b =>
      match b with
      | none => M.pure none
      | some b => M.bind (alloc A (.str (Json.print fmt 0 v))) fun t =>
        M.bind (free (some b)) fun _ => M.pure t

/-- The root with what it contains; if the function gives up, the root is deleted. `first` tells whether a missing root makes it give up. -/
def top (A : Alloc) (chk : Bytes → Bool) (first : Bool) (j : Json) : M Made :=
  M.bind (create A) fun n =>
  if n.isNone && first then M.pure .abort
  else match j with
    | .arr l => M.bind (elems A chk [] (n.map fun n => [n]) l) fun r =>
        match r.2.1 with
        | none => M.pure (if r.1 then .abort else .null)
        | some bs => if r.1 then M.bind (freeAll bs) fun _ => M.pure .abort else M.pure (.item bs (.arr r.2.2))
    | .obj m => M.bind (members A chk (n.map fun n => [n]) m) fun r =>
        match r.2.1 with
        | none => M.pure (if r.1 then .abort else .null)
        | some bs => if r.1 then M.bind (freeAll bs) fun _ => M.pure .abort else M.pure (.item bs (.obj r.2.2))
    | j => M.pure (match n with | none => .null | some n => .item [n] j)

/-- Build, print, delete. The result is the text, or NULL, for which every function reports an error. -/
def write (A : Alloc) (g : Bytes → Nat) (chk : Bytes → Bool) (first fmt : Bool) (j : Json) : M (Option Nat) :=
  M.bind (top A chk first j) fun r =>
  match r with
  | .abort => M.pure none
  | .null => print A g fmt none
  | .item bs v => M.bind (print A g fmt (some v)) fun t => M.bind (freeAll bs) fun _ => M.pure t

/-! ## The functions of /repo -/

/-- What cJSON makes of numbers, and how its printer's buffer grows. -/
structure Env where
  td : Int → Int
  fr : Int → Bytes
  g : Bytes → Nat

/-- No result is looked at. -/
def never : Bytes → Bool := fun _ => false
/-- Every array and object is looked at. -/
def always : Bytes → Bool := fun _ => true

/-- event.c:283-315 `serialize_for_id` with cJSON: not even the root is looked at. -/
def serializeId (A : Alloc) (N : Env) (e : Event.Event) : M (Option Nat) := write A N.g never false false (Event.idTree N.td N.fr e)

/-- event.c:315-329, 341-346, 226-280: the escaped copy of a text. -/
def escaped (A : Alloc) (s : Bytes) : M (Option Nat) := alloc A (.str (escape s))

/-- event.c:334-351 without cJSON: a copy of every value, released after use; `false` if there was no memory for one. -/
def copies (A : Alloc) : List Bytes → M Bool
  | [] => M.pure true
  | v :: vs => M.bind (escaped A v) fun c =>
    match c with
    | none => M.pure false
    | some c => M.bind (free (some c)) fun _ => copies A vs

/-- event.c:315-363 `serialize_for_id` without cJSON: `strlen` of the escaped content without a look at it (line 324). That the text
fits is C80: `none` here for a text that does not. -/
def serializeIdPlain (A : Alloc) (e : Event.Event) : M (Option Nat) :=
  M.bind (escaped A e.text) fun c =>
  match c with
  | none => fun _ => none
  | some c => M.bind (alloc A (.str [])) fun r =>
    match r with
    | none => M.bind (free (some c)) fun _ => M.pure none
    | some r => M.bind (copies A e.tags.flatten) fun ok =>
      if ok then match Event.serializePlain e with
        | .ok t => M.bind (store r (.str t)) fun _ => M.bind (free (some c)) fun _ => M.pure (some r)
        | _ => fun _ => none
      else M.bind (free (some r)) fun _ => M.bind (free (some c)) fun _ => M.pure none

/-- event.c:366-383 `nostr_event_compute_id`: the event afterwards. -/
def computeId (H : Bytes → Bytes) (ser : M (Option Nat)) (e : Event.Event) : M (Option Err × Event.Event) :=
  M.bind ser fun t =>
  match t with
  | none => M.pure (some .memory, e)
  | some t => M.bind (loadStr t) fun s =>
    M.bind (free (some t)) fun _ => M.pure (none, { e with id := H s })

/-- event.c:593-692 `nostr_event_sign`: `rand` is the outcome of the random generator. What the libraries for the curve allocate is not
modelled. The event afterwards is not given if an error is reported. -/
def sign (C : Event.Crypto) (ser : Event.Event → M (Option Nat)) (rand : Option Bytes) (sk : Bytes) (e : Event.Event) : M (Res Event.Event) :=
  match C.pubOf sk with
  | none => M.pure (.err .invalidKey)
  | some pk => M.bind (computeId C.sha256 (ser { e with pubkey := pk }) { e with pubkey := pk }) fun r =>
    match r.1 with
    | some x => M.pure (.err x)
    | none => M.pure (match rand with
      | none => .err .memory
      | some a => match C.sign sk r.2.id a with
        | none => .err .invalidSignature
        | some g => .ok { r.2 with sig := g })

/-- event.c:694-762 `nostr_event_verify`. -/
def verify (C : Event.Crypto) (ser : Event.Event → M (Option Nat)) (e : Event.Event) : M (Res Unit) :=
  M.bind (computeId C.sha256 (ser e) e) fun r =>
  match r.1 with
  | some x => M.pure (.err x)
  | none => M.pure (if Hex.ctMemcmp e.id r.2.id ≠ 0 then .err .invalidEvent
      else if !C.validPub e.pubkey then .err .invalidKey
      else if !C.verify e.pubkey e.id e.sig then .err .invalidSignature
      else .ok ())

/-- event.c:385-440 `nostr_event_to_json` with cJSON. -/
def eventJson (A : Alloc) (N : Env) (e : Event.Event) : M (Option Nat) := write A N.g never true true (Event.toTree N.td N.fr e)

/-- relay_protocol.c:350-366, relay_nip11.c:192-206, 419-431: copying the text into the caller's buffer and releasing it. -/
def intoBuf (text : M (Option Nat)) (size : Nat) : M (Res Bytes) :=
  M.bind text fun t =>
  match t with
  | none => M.pure (.err (.relay .memory))
  | some t => M.bind (loadStr t) fun s =>
    M.bind (free (some t)) fun _ => M.pure (if s.length ≥ size then .err (.relay .bufferTooSmall) else .ok s)

/-- relay_protocol.c:313-367 `nostr_event_serialize_canonical`: the text. -/
def canonicalText (A : Alloc) (N : Env) (e : Event.Event) : M (Option Nat) :=
  write A N.g never true false (Event.idTree N.td N.fr e)

/-- relay_protocol.c:313-367: the text is copied into the caller's buffer. -/
def canonical (A : Alloc) (N : Env) (e : Event.Event) (size : Nat) : M (Res Bytes) := intoBuf (canonicalText A N e) size

/-- relay_protocol.c:369-394 `nostr_event_serialize`. -/
def eventBuf (A : Alloc) (N : Env) (e : Event.Event) (size : Nat) : M (Res Bytes) := intoBuf (eventJson A N e) size

/-- relay_nip11.c:138-206 `nostr_relay_limitation_serialize`: the text. -/
def limitationText (A : Alloc) (N : Env) (l : Nip11.Limitation) : M (Option Nat) :=
  write A N.g never true false (Nip11.limTree N.td N.fr l)

/-- relay_nip11.c:138-206: the text is copied into the caller's buffer. -/
def limitation (A : Alloc) (N : Env) (l : Nip11.Limitation) (size : Nat) : M (Res Bytes) := intoBuf (limitationText A N l) size

/-- relay_nip11.c:208-431 `nostr_relay_info_serialize`: only the array of NIPs is looked at (243-246): the text. -/
def infoText (A : Alloc) (N : Env) (i : Nip11.Info) : M (Option Nat) :=
  write A N.g (fun k => k == c!"supported_nips") true false (Nip11.infoTree N.td N.fr i)

/-- relay_nip11.c:208-431: the text is copied into the caller's buffer. -/
def info (A : Alloc) (N : Env) (i : Nip11.Info) (size : Nat) : M (Res Bytes) := intoBuf (infoText A N i) size

/-- relay_message.c:399-470 for a message other than EVENT; the object of COUNT is looked at (454-458). -/
def otherMsg (A : Alloc) (N : Env) (m : Msg.RelayMsg) : M (Option Nat) :=
  match Msg.msgTree N.td N.fr (fun t => .num t) m with
  | .ok j => write A N.g always true false j
  | _ => fun _ => none

/-- relay_message.c:400-420: the event is written as a text, which is read again; simplified: what `cJSON_Parse` makes of it is one
block. `r` tells what numbers become that cJSON stores as `double`. -/
def eventMsg (A : Alloc) (N : Env) (r : Bytes → Json) (sub : Bytes) (e : Event.Event) : M (Option Nat) :=
  M.bind (top A never true (.arr [.str (c!"EVENT"), .str sub])) fun q =>
  match q with
  | .item cs (.arr l) =>
    M.bind (eventJson A N e) fun t =>
    match t with
    | none => M.bind (freeAll cs) fun _ => M.pure none
    | some t => M.bind (loadStr t) fun s =>
      match Json.parse s with
      | none => M.bind (free (some t)) fun _ => M.bind (freeAll cs) fun _ => M.pure none
      | some j => M.bind (alloc A (.str s)) fun o =>
        M.bind (free (some t)) fun _ =>
        match o with
        | none => M.bind (freeAll cs) fun _ => M.pure none
        | some o => M.bind (print A N.g false (some (.arr (l ++ [Json.mapNum r j])))) fun t =>
          M.bind (freeAll (cs ++ [o])) fun _ => M.pure t
  | _ => M.pure none

/-- relay_message.c:388-491 `nostr_relay_msg_serialize`. -/
def message (A : Alloc) (N : Env) (r : Bytes → Json) (m : Msg.RelayMsg) (size : Nat) : M (Res Bytes) :=
  match m with
  | .event sub none => M.bind (top A never true (.arr [.str (c!"EVENT"), .str sub])) fun q =>
    match q with
    | .item cs _ => M.bind (freeAll cs) fun _ => M.pure (.err (.relay .missingField))
    | _ => M.pure (.err (.relay .memory))
  | .event sub (some e) => intoBuf (eventMsg A N r sub e) size
  | m => intoBuf (otherMsg A N m) size

/-- nip47.c:658-701 `nostr_nip47_create_pay_invoice_params`. -/
def payInvoice (A : Alloc) (N : Env) (invoice : Bytes) (amount : Option Nat) : M (Option Nat) :=
  write A N.g never true false (.obj ((c!"invoice", .str invoice) ::
    Nip47.numField N.td N.fr (c!"amount") (amount.map fun (n : Nat) => (n : Int))))

/-- nip47.c:717-784 `nostr_nip47_create_make_invoice_params`, for an amount that is not 0. -/
def makeInvoice (A : Alloc) (N : Env) (amount : Nat) (descr hash : Option Bytes) (expiry : Option Nat) : M (Option Nat) :=
  write A N.g never true false (.obj ((c!"amount", .num (numTok N.td N.fr amount)) ::
    (Nip47.strField (c!"description") descr ++ Nip47.strField (c!"description_hash") hash ++
      Nip47.numField N.td N.fr (c!"expiry") (expiry.map fun (n : Nat) => (n : Int)))))

/-- nip47_commands.c:11-54 `nostr_nip47_create_list_transactions_params`. -/
def listTx (A : Alloc) (N : Env) (fromT untilT : Option Int) (limit offset : Option Nat) (unpaid : Option Bool) (type : Option Bytes) :
    M (Option Nat) :=
  write A N.g never true false (.obj (Nip47.numField N.td N.fr (c!"from") fromT ++ Nip47.numField N.td N.fr (c!"until") untilT ++
    Nip47.numField N.td N.fr (c!"limit") (limit.map fun (n : Nat) => (n : Int)) ++
    Nip47.numField N.td N.fr (c!"offset") (offset.map fun (n : Nat) => (n : Int)) ++
    Nip47.boolField (c!"unpaid") unpaid ++ Nip47.strField (c!"type") type))

/-- nip47_commands.c:106-132 `nostr_nip47_create_lookup_invoice_params`, if one of the two is given. -/
def lookupInvoice (A : Alloc) (N : Env) (hash invoice : Option Bytes) : M (Option Nat) :=
  write A N.g never true false (.obj (Nip47.strField (c!"payment_hash") hash ++ Nip47.strField (c!"invoice") invoice))

/-- nip47_commands.c:157-209 `nostr_nip47_create_pay_keysend_params`, for an amount that is not 0: the array (179-183) and the objects in
it (187-191) are looked at. -/
def payKeysend (A : Alloc) (N : Env) (amount : Nat) (pubkey : Bytes) (preimage : Option Bytes) (tlv : List Bytes) : M (Option Nat) :=
  write A N.g always true false (.obj ((c!"amount", .num (numTok N.td N.fr amount)) :: (c!"pubkey", .str pubkey) ::
    (Nip47.strField (c!"preimage") preimage ++ Nip47.tlvField N.td N.fr tlv)))

/-- nip47_commands.c:249-298 `nostr_nip47_create_multi_pay_invoice_params`, for at least one payment: the array (264-268) and the objects
in it (271-275) are looked at. -/
def multiPay (A : Alloc) (N : Env) (l : List Nip47.Pay) : M (Option Nat) :=
  write A N.g always true false (.obj [(c!"invoices", .arr (l.map (Nip47.payTree N.td N.fr)))])

end Nostr.Own.Tree
