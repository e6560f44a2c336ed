import Verif.Json.Model
import Verif.Basic

/-!
# Model of relay information documents (src/relay_nip11.c)

Builds with cJSON (`NOSTR_FEATURE_JSON_ENHANCED`). Allocation inside cJSON succeeds. A count of zero and a NULL
array are both an empty list; a positive count with a NULL array is not modelled.
-/

namespace Nostr.Nip11
open Nostr Nostr.Json

/-- include/nostr_relay_protocol.h:702-717 `nostr_relay_limitation_t`. -/
structure Limitation where
  maxMessageLength : Int
  maxSubscriptions : Int
  maxFilters : Int
  maxLimit : Int
  maxSubidLength : Int
  maxEventTags : Int
  maxContentLength : Int
  minPow : Int
  authRequired : Bool
  paymentRequired : Bool
  restrictedWrites : Bool
  createdLower : Int
  createdUpper : Int
  defaultLimit : Int
  deriving DecidableEq, Repr

/-- include/nostr_relay_protocol.h:719-724 `nostr_relay_retention_t`. -/
structure Retention where
  kinds : List Int
  time : Int
  count : Int
  deriving DecidableEq, Repr

/-- include/nostr_relay_protocol.h:726-732 `nostr_relay_fee_t`. -/
structure Fee where
  amount : Nat
  unit : Option Bytes
  period : Nat
  kinds : List Int
  deriving DecidableEq, Repr

/-- include/nostr_relay_protocol.h:734-769 `nostr_relay_info_t` with `nostr_relay_fees_t`. -/
structure Info where
  name : Option Bytes
  description : Option Bytes
  banner : Option Bytes
  icon : Option Bytes
  pubkey : Option Bytes
  selfPubkey : Option Bytes
  contact : Option Bytes
  nips : List Int
  software : Option Bytes
  version : Option Bytes
  privacy : Option Bytes
  terms : Option Bytes
  limitation : Limitation
  retention : List Retention
  countries : List Bytes
  languages : List Bytes
  tags : List Bytes
  policy : Option Bytes
  payments : Option Bytes
  admission : List Fee
  subscription : List Fee
  publication : List Fee
  deriving DecidableEq, Repr

/-- relay_nip11.c:14-33 `nostr_relay_limitation_init`. -/
def limitation0 : Limitation :=
  ⟨128 * 1024, 20, 10, 5000, 64, 2000, 64 * 1024, 0, false, false, false, 0, 0, 500⟩

/-- relay_nip11.c:35-41 `nostr_relay_info_init`. -/
def info0 : Info :=
  ⟨none, none, none, none, none, none, none, [], none, none, none, none, limitation0, [], [], [], [], none, none, [], [], []⟩

/-! ## The list of supported NIPs -/

/-- The members `supported_nips` and `supported_nips_count`: the contents of the array (its allocated size) and the
count. -/
structure Nips where
  arr : Option (List Int)
  count : Nat
  deriving DecidableEq, Repr

/-- Where the argument array of `nostr_relay_info_set_nips` lives: elsewhere, or in the document itself. -/
inductive Src
  | other (l : List Int)
  | own
  deriving DecidableEq, Repr

/-- relay_nip11.c:43-67 `nostr_relay_info_set_nips`; `mem` tells whether `malloc` succeeds. The old array is freed
before the argument is copied. A copy of more elements than the argument array has is out of bounds. -/
def setNips (s : Nips) (src : Src) (count : Nat) (mem : Bool) : Res Nips × Nips :=
  let s0 : Nips := ⟨none, 0⟩
  match src with
  | .own =>
      if count = 0 ∨ s.arr = none then (.ok s0, s0)
      else if mem = false then (.err (.relay .memory), s0)
      else (.ub, s0)
  | .other l =>
      if count = 0 then (.ok s0, s0)
      else if mem = false then (.err (.relay .memory), s0)
      else if l.length < count then (.ub, s0)
      else (.ok ⟨some (l.take count), count⟩, ⟨some (l.take count), count⟩)

/-- The array after `realloc` to `n` elements: old contents, then unspecified values `junk`. -/
def realloc (junk : Int) (arr : Option (List Int)) (n : Nat) : List Int :=
  ((arr.getD []) ++ List.replicate n junk).take n

/-- relay_nip11.c:69-84 `nostr_relay_info_add_nip`. Writing behind the array is out of bounds. -/
def addNip (junk : Int) (s : Nips) (nip : Int) (mem : Bool) : Res Nips × Nips :=
  if mem = false then (.err (.relay .memory), s)
  else
    let a := realloc junk s.arr (s.count + 1)
    if s.count < a.length then (.ok ⟨some (a.set s.count nip), s.count + 1⟩, ⟨some (a.set s.count nip), s.count + 1⟩)
    else (.ub, s)

/-! ## Serialisation -/

section
variable (td : Int → Int) (fr : Int → Bytes)

/-- `cJSON_CreateNumber`. -/
def numJ (n : Int) : Json := .num (numTok td fr n)

/-- relay_nip11.c:217-237 and similar lines: a string member, if the pointer is not NULL. -/
def strM (k : Bytes) (o : Option Bytes) : List (Bytes × Json) :=
  match o with
  | none => []
  | some s => [(k, .str s)]

/-- relay_nip11.c:148-171 and similar lines: a number member, if the value is positive. -/
def posM (k : Bytes) (n : Int) : List (Bytes × Json) := if n > 0 then [(k, numJ td fr n)] else []

/-- `cJSON_AddBoolToObject`. -/
def boolM (k : Bytes) (b : Bool) : List (Bytes × Json) := [(k, if b then .tru else .fls)]

/-- relay_nip11.c:319-341: an array of strings, if not empty. -/
def strsM (k : Bytes) (l : List Bytes) : List (Bytes × Json) := if l = [] then [] else [(k, .arr (l.map .str))]

/-- relay_nip11.c:300-306 and 393-399: an array of numbers, if not empty. -/
def numsM (k : Bytes) (l : List Int) : List (Bytes × Json) := if l = [] then [] else [(k, .arr (l.map (numJ td fr)))]

/-- relay_nip11.c:143-186 (and again 260-295): the limitation object. -/
def limTree (l : Limitation) : Json :=
  .obj (posM td fr (c!"max_message_length") l.maxMessageLength ++ posM td fr (c!"max_subscriptions") l.maxSubscriptions ++
    posM td fr (c!"max_filters") l.maxFilters ++ posM td fr (c!"max_limit") l.maxLimit ++
    posM td fr (c!"max_subid_length") l.maxSubidLength ++ posM td fr (c!"max_event_tags") l.maxEventTags ++
    posM td fr (c!"max_content_length") l.maxContentLength ++ posM td fr (c!"min_pow_difficulty") l.minPow ++
    boolM (c!"auth_required") l.authRequired ++ boolM (c!"payment_required") l.paymentRequired ++
    boolM (c!"restricted_writes") l.restrictedWrites ++ posM td fr (c!"created_at_lower_limit") l.createdLower ++
    posM td fr (c!"created_at_upper_limit") l.createdUpper ++ posM td fr (c!"default_limit") l.defaultLimit)

/-- relay_nip11.c:299-314: one retention rule. -/
def retTree (x : Retention) : Json :=
  .obj (numsM td fr (c!"kinds") x.kinds ++ (if x.time ≠ 0 then [(c!"time", numJ td fr x.time)] else []) ++
    posM td fr (c!"count") x.count)

/-- relay_nip11.c:359-364: an admission fee. -/
def admTree (f : Fee) : Json := .obj ([(c!"amount", numJ td fr f.amount)] ++ strM (c!"unit") f.unit)

/-- relay_nip11.c:372-380: a subscription fee. -/
def subTree (f : Fee) : Json :=
  .obj ([(c!"amount", numJ td fr f.amount)] ++ strM (c!"unit") f.unit ++ posM td fr (c!"period") f.period)

/-- relay_nip11.c:388-404: a publication fee. -/
def pubTree (f : Fee) : Json :=
  .obj (numsM td fr (c!"kinds") f.kinds ++ [(c!"amount", numJ td fr f.amount)] ++ strM (c!"unit") f.unit)

/-- relay_nip11.c:357-409: one list of fees, if not empty. -/
def feesM (k : Bytes) (g : Fee → Json) (l : List Fee) : List (Bytes × Json) := if l = [] then [] else [(k, .arr (l.map g))]

/-- relay_nip11.c:350-412: the fees. -/
def feesTree (i : Info) : List (Bytes × Json) :=
  if i.admission = [] ∧ i.subscription = [] ∧ i.publication = [] then []
  else [(c!"fees", .obj (feesM (c!"admission") (admTree td fr) i.admission ++
    feesM (c!"subscription") (subTree td fr) i.subscription ++ feesM (c!"publication") (pubTree td fr) i.publication))]

/-- relay_nip11.c:211-412: the document. -/
def infoTree (i : Info) : Json :=
  .obj (strM (c!"name") i.name ++ strM (c!"description") i.description ++ strM (c!"banner") i.banner ++
    strM (c!"icon") i.icon ++ strM (c!"pubkey") i.pubkey ++ strM (c!"self") i.selfPubkey ++ strM (c!"contact") i.contact ++
    [(c!"supported_nips", .arr (i.nips.map (numJ td fr)))] ++
    strM (c!"software") i.software ++ strM (c!"version") i.version ++ strM (c!"privacy_policy") i.privacy ++
    strM (c!"terms_of_service") i.terms ++ [(c!"limitation", limTree td fr i.limitation)] ++
    (if i.retention = [] then [] else [(c!"retention", .arr (i.retention.map (retTree td fr)))]) ++
    strsM (c!"relay_countries") i.countries ++ strsM (c!"language_tags") i.languages ++ strsM (c!"tags") i.tags ++
    strM (c!"posting_policy") i.policy ++ strM (c!"payments_url") i.payments ++ feesTree td fr i)

end

/-- What a call leaves behind: return code, `*out_len` (`none`: not written) and the caller's buffer. -/
structure Out where
  code : Res Unit
  len : Option Nat
  buf : Bytes
  deriving DecidableEq, Repr

/-- relay_nip11.c:188-206 (and again 414-431): copy the printed text with its terminator into the caller's buffer
`buf`. Copying more than the buffer holds is out of bounds. -/
def emit (text : Bytes) (buf : Bytes) : Out :=
  if text.length ≥ buf.length then ⟨.err (.relay .bufferTooSmall), some text.length, buf⟩
  else if buf.length < text.length + 1 then ⟨.ub, some text.length, buf⟩
  else ⟨.ok (), some text.length, text ++ [0] ++ buf.drop (text.length + 1)⟩

/-- relay_nip11.c:139-206 `nostr_relay_limitation_serialize`. -/
def limSerialize (td : Int → Int) (fr : Int → Bytes) (l : Limitation) (buf : Bytes) : Out :=
  if buf.length = 0 then ⟨.err (.relay .invalidJson), none, buf⟩ else emit (print false 0 (limTree td fr l)) buf

/-- relay_nip11.c:208-431 `nostr_relay_info_serialize`. -/
def infoSerialize (td : Int → Int) (fr : Int → Bytes) (i : Info) (buf : Bytes) : Out :=
  if buf.length = 0 then ⟨.err (.relay .invalidJson), none, buf⟩ else emit (print false 0 (infoTree td fr i)) buf

end Nostr.Nip11
