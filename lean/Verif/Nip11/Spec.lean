import Verif.Nip11.Model

/-! # Specification: what a reader of a relay information document sees -/

namespace Nostr.Nip11.Spec
open Nostr Nostr.Json

/-- The member of this name is the given text, or absent. -/
def Text (root : Json) (k : Bytes) (o : Option Bytes) : Prop := get root k = o.map .str

/-- A JSON number with the value `n`. -/
def IsNum (real : Bytes → Int) (n : Int) (j : Json) : Prop := ∃ t, j = .num t ∧ int64 real t = n

/-- A JSON array of numbers with these values, in this order. -/
def IsNums (real : Bytes → Int) (l : List Int) (j : Json) : Prop :=
  ∃ js, j = .arr js ∧ js.length = l.length ∧ ∀ i (h : i < l.length) (h' : i < js.length), IsNum real l[i] js[i]

/-- The member of this name is the number `n` if that is positive, else it is absent. -/
def Limit (real : Bytes → Int) (root : Json) (k : Bytes) (n : Int) : Prop :=
  if 0 < n then ∃ j, get root k = some j ∧ IsNum real n j else get root k = none

/-- The member of this name is this truth value. -/
def Flag (root : Json) (k : Bytes) (b : Bool) : Prop := get root k = some (if b then .tru else .fls)

/-- The member of this name is the list of these texts; no member for an empty list. -/
def Texts (root : Json) (k : Bytes) (l : List Bytes) : Prop :=
  get root k = if l = [] then none else some (.arr (l.map .str))

/-- The member of this name is the list of these numbers; no member for an empty list. -/
def Nums (real : Bytes → Int) (root : Json) (k : Bytes) (l : List Int) : Prop :=
  if l = [] then get root k = none else ∃ j, get root k = some j ∧ IsNums real l j

/-- An object with all limits. -/
structure Limits (real : Bytes → Int) (l : Limitation) (root : Json) : Prop where
  message : Limit real root (c!"max_message_length") l.maxMessageLength
  subscriptions : Limit real root (c!"max_subscriptions") l.maxSubscriptions
  filters : Limit real root (c!"max_filters") l.maxFilters
  limit : Limit real root (c!"max_limit") l.maxLimit
  subid : Limit real root (c!"max_subid_length") l.maxSubidLength
  tags : Limit real root (c!"max_event_tags") l.maxEventTags
  content : Limit real root (c!"max_content_length") l.maxContentLength
  pow : Limit real root (c!"min_pow_difficulty") l.minPow
  auth : Flag root (c!"auth_required") l.authRequired
  payment : Flag root (c!"payment_required") l.paymentRequired
  restricted : Flag root (c!"restricted_writes") l.restrictedWrites
  lower : Limit real root (c!"created_at_lower_limit") l.createdLower
  upper : Limit real root (c!"created_at_upper_limit") l.createdUpper
  default : Limit real root (c!"default_limit") l.defaultLimit

/-- A retention rule; its time may be missing if it is zero. -/
structure Rule (real : Bytes → Int) (x : Retention) (j : Json) : Prop where
  kinds : Nums real j (c!"kinds") x.kinds
  time : if x.time = 0 then get j (c!"time") = none else ∃ v, get j (c!"time") = some v ∧ IsNum real x.time v
  count : Limit real j (c!"count") x.count

/-- A fee, with period and kinds where they apply. -/
structure Charge (real : Bytes → Int) (period kinds : Bool) (f : Fee) (j : Json) : Prop where
  amount : ∃ v, get j (c!"amount") = some v ∧ IsNum real f.amount v
  unit : Text j (c!"unit") f.unit
  period : Limit real j (c!"period") (if period then f.period else 0)
  kinds : Nums real j (c!"kinds") (if kinds then f.kinds else [])

/-- A list of objects, one per element and in order; no member for an empty list. -/
def Each {α : Type} (p : α → Json → Prop) (root : Json) (k : Bytes) (l : List α) : Prop :=
  if l = [] then get root k = none
  else ∃ js, get root k = some (.arr js) ∧ js.length = l.length ∧ ∀ i (h : i < l.length) (h' : i < js.length), p l[i] js[i]

/-- The whole document. -/
structure Document (real : Bytes → Int) (i : Info) (root : Json) : Prop where
  name : Text root (c!"name") i.name
  description : Text root (c!"description") i.description
  banner : Text root (c!"banner") i.banner
  icon : Text root (c!"icon") i.icon
  pubkey : Text root (c!"pubkey") i.pubkey
  self : Text root (c!"self") i.selfPubkey
  contact : Text root (c!"contact") i.contact
  nips : ∃ j, get root (c!"supported_nips") = some j ∧ IsNums real i.nips j
  software : Text root (c!"software") i.software
  version : Text root (c!"version") i.version
  privacy : Text root (c!"privacy_policy") i.privacy
  terms : Text root (c!"terms_of_service") i.terms
  limitation : ∃ j, get root (c!"limitation") = some j ∧ Limits real i.limitation j
  retention : Each (Rule real) root (c!"retention") i.retention
  countries : Texts root (c!"relay_countries") i.countries
  languages : Texts root (c!"language_tags") i.languages
  tags : Texts root (c!"tags") i.tags
  policy : Text root (c!"posting_policy") i.policy
  payments : Text root (c!"payments_url") i.payments
  fees : if i.admission = [] ∧ i.subscription = [] ∧ i.publication = [] then get root (c!"fees") = none
    else ∃ j, get root (c!"fees") = some j ∧ Each (Charge real false false) j (c!"admission") i.admission ∧
      Each (Charge real true false) j (c!"subscription") i.subscription ∧
      Each (Charge real false true) j (c!"publication") i.publication

/-- Texts are C strings and numbers have at most 15 digits. -/
structure Usual (i : Info) : Prop where
  texts : ∀ o ∈ [i.name, i.description, i.banner, i.icon, i.pubkey, i.selfPubkey, i.contact, i.software, i.version,
    i.privacy, i.terms, i.policy, i.payments], ∀ s ∈ o, CStr s
  lists : ∀ l ∈ [i.countries, i.languages, i.tags], ∀ s ∈ l, CStr s
  nips : ∀ n ∈ i.nips, n.natAbs < 10 ^ 15
  limits : ∀ n ∈ [i.limitation.maxMessageLength, i.limitation.maxSubscriptions, i.limitation.maxFilters,
    i.limitation.maxLimit, i.limitation.maxSubidLength, i.limitation.maxEventTags, i.limitation.maxContentLength,
    i.limitation.minPow, i.limitation.createdLower, i.limitation.createdUpper, i.limitation.defaultLimit], n.natAbs < 10 ^ 15
  retention : ∀ x ∈ i.retention, (∀ n ∈ x.kinds, n.natAbs < 10 ^ 15) ∧ x.time.natAbs < 10 ^ 15 ∧ x.count.natAbs < 10 ^ 15
  fees : ∀ l ∈ [i.admission, i.subscription, i.publication], ∀ f ∈ l,
    (∀ n ∈ f.kinds, n.natAbs < 10 ^ 15) ∧ f.amount < 10 ^ 15 ∧ f.period < 10 ^ 15 ∧ ∀ s ∈ f.unit, CStr s

end Nostr.Nip11.Spec
