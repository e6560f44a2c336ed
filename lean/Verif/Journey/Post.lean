import Verif.Journey.Spec
import Verif.Nip10.Model
import Verif.Nip13.Model
import Verif.Nip18.Model
import Verif.Nip25.Model
import Verif.Nip26.Model
import Verif.Nip51.Model
import Verif.Nip65.Model
import Verif.Zap.Model

/-!
# Making an event with the library's calls

An application begins an event with one of the library's constructors, goes on with any of the calls that change it, signs it and publishes it.
It stops at the first call that fails.
-/

namespace Nostr.Journey.Post
open Nostr Nostr.Event Nostr.Json Nostr.Filter Nostr.Journey.Spec

/-- The author's surroundings: configuration and build of the host, cryptography, what `nostr_list_to_event` encrypts with. -/
structure Desk where
  host : Host
  crypto : Crypto
  nc : Nip44.Nc
  b64 : Nip44.B64

/-- How an event begins; strings are C strings, `none` is NULL. -/
inductive Start
  /-- `nostr_event_create` -/
  | blank
  /-- `nostr_reaction_create` -/
  | reaction (content : Option Bytes) (id pubkey : Bytes) (relay : Option Bytes) (kind : Nat)
  /-- `nostr_repost_create` -/
  | repost (id pubkey relay : Bytes) (kind : Nat) (d json : Option Bytes)
  /-- `nostr_zap_create_request` -/
  | zap (amount : Nat) (recipient : Bytes) (lnurl content : Option Bytes) (relays : List Bytes)
  /-- `nostr_relay_list_to_event` -/
  | relays (l : Nip65.Lst)
  /-- `nostr_list_to_event` -/
  | list (nonce : Option Bytes) (keys : Option Nip51.Keys) (l : Nip51.Lst)

/-- event.c:87-117 `nostr_event_create`, nip25.c:34-82, nip18.c:36-106, zap.c:45-110, nip65.c:143-182, nip51.c:464-570; `now` is the clock. -/
def begin_ (D : Desk) (now : Int) : Start → Res Event
  | .blank => .ok { zero with createdAt := now }
  | .reaction c i p r k => Nip25.create D.host.cfg now c i p r k
  | .repost i p r k d j => Nip18.repostCreate D.host.cfg now i p r k d j
  | .zap a r u c rs => Zap.createRequest D.host.cfg now a r u c rs
  | .relays l => Nip65.toEvent D.host.cfg now l
  | .list n k l => Nip51.toEvent D.nc D.b64 D.host.cfg now n k l

/-- What is done with it. -/
inductive Op
  /-- `nostr_event_set_content` -/
  | content (t : Bytes)
  /-- `event->kind`, an `uint16_t` -/
  | kind (k : Nat)
  /-- `event->created_at` -/
  | time (t : Int)
  /-- `event->pubkey` -/
  | author (pk : Bytes)
  /-- `nostr_event_add_tag` -/
  | tag (values : List Bytes)
  /-- `nostr_event_add_reply_tags` -/
  | reply (root reply : Option Nip10.Ref)
  /-- `nostr_event_add_mention_tag` -/
  | mention (pubkey : Bytes) (relay : Option Bytes)
  /-- `nostr_nip13_add_nonce_tag` -/
  | nonce (n : Nat) (target : Int)
  /-- `nostr_nip13_mine_event`; `clock` is the time in each iteration, `fuel` bounds the iterations that are looked at -/
  | mine (target : Int) (maxIter fuel : Nat) (clock : Nat → Int)
  /-- `nostr_event_add_delegation` -/
  | delegation (d : Nip26.Delegation)
  /-- `nostr_quote_tags_from_content`; `junk` is what the stack holds -/
  | quotes (junk : Nat → Bytes)

/-- The event if there was no error. -/
def noError : Event × Option Err → Res Event
  | (e, none) => .ok e
  | (_, some x) => .err x

/-- One call: event.c:119-225, nip10.c:175-207, nip13.c:131-245, nip26.c:351-371, nip18.c:192-284. Mining that has not ended counts as not found. -/
def step (D : Desk) (e : Event) : Op → Res Event
  | .content t => .ok { e with content := some t }
  | .kind k => .ok { e with kind := k }
  | .time t => .ok { e with createdAt := t }
  | .author pk => .ok { e with pubkey := pk }
  | .tag vs => addTag D.host.cfg e vs
  | .reply a b => noError (Nip10.addReplyTags D.host.cfg e a b)
  | .mention pk r => Nip10.addMention D.host.cfg e pk r
  | .nonce n t => Nip13.addNonce D.host.cfg e n t
  | .mine t m f c => (Nip13.mine ⟨D.host.cfg, D.crypto, D.host.b, c⟩ t m f e).getD (.err .notFound)
  | .delegation d => Nip26.addDelegation D.host.cfg e d
  | .quotes j => Nip18.quoteTags D.host.cfg j e >>= noError

/-- The calls one after the other. -/
def steps (D : Desk) : Event → List Op → Res Event
  | e, [] => .ok e
  | e, o :: os => step D e o >>= fun e1 => steps D e1 os

/-- The event that an application has made. -/
def made (D : Desk) (now : Int) (s : Start) (os : List Op) : Res Event := begin_ D now s >>= fun e => steps D e os

/-- Arguments that exist in C: strings without a null byte, kinds of 16 bits. -/
def Start.Proper : Start → Prop
  | .blank => True
  | .reaction c i p r k => (∀ t ∈ c, CStr t) ∧ CStr i ∧ CStr p ∧ (∀ t ∈ r, CStr t) ∧ k < 65536
  | .repost i p r k d j => CStr i ∧ CStr p ∧ CStr r ∧ k < 65536 ∧ (∀ t ∈ d, CStr t) ∧ ∀ t ∈ j, CStr t
  | .zap _ _ u c rs => (∀ t ∈ u, CStr t) ∧ (∀ t ∈ c, CStr t) ∧ ∀ t ∈ rs, CStr t
  | .relays l => ∀ x ∈ l.entries, CStr x.url
  | .list _ _ l => l.kind < 65536 ∧ (∀ t ∈ [l.d, l.title, l.descr, l.image], ∀ s ∈ t, CStr s) ∧
      ∀ x ∈ l.items, CStr x.type ∧ CStr x.value ∧ (∀ s ∈ x.hint, CStr s) ∧ ∀ s ∈ x.pet, CStr s

/-- The strings of a reference are C strings. -/
def RefProper (x : Nip10.Ref) : Prop := CStr x.id ∧ (∀ s ∈ x.relay, CStr s) ∧ ∀ s ∈ x.pubkey, CStr s

/-- The same for the other calls. -/
def Op.Proper : Op → Prop
  | .content t => CStr t
  | .kind k => k < 65536
  | .tag vs => ∀ v ∈ vs, CStr v
  | .reply a b => (∀ x ∈ a, RefProper x) ∧ ∀ x ∈ b, RefProper x
  | .mention p r => CStr p ∧ ∀ s ∈ r, CStr s
  | .delegation d => CStr d.conditions
  | .time _ | .author _ | .nonce _ _ | .mine _ _ _ _ | .quotes _ => True

/-- The way of an event from its author through a relay to a subscriber: three hosts, a subscription `id` open at the relay with filters that
match, made at the client with the callback `cb` after the history `past`. -/
structure Route (C : Crypto) (relay client : Host) (e : Event) (open_ : List (Bytes × List Filter)) (id : Bytes)
    (past : List Relay.Spec.Op) (cb : Nat) : Prop where
  crypto : Event.Props.CryptoOK C
  relayNumbers : Renum relay.r
  clientNumbers : Renum client.r
  time : e.createdAt.natAbs < 10 ^ 15
  relayAdmits : relay.Admits e
  clientAdmits : client.Admits e
  isOpen : ∃ fs, (id, fs) ∈ open_ ∧ filtersMatch fs e = true
  idText : CStr id
  idLength : id.length ≤ 64
  callback : (Relay.Spec.stack id past).head? = some (some cb)

/-- Published by the author with `nostr_relay_send_event` and passed on by the relay, the event arrives at the client as `got`, in exactly
one callback, however the text is split into chunks. -/
def Arrives (C : Crypto) (author relay client : Host) (e : Event) (open_ : List (Bytes × List Filter)) (id : Bytes) (hasCb : Bool)
    (past : List Relay.Spec.Op) (cb : Nat) (got : Event) : Prop :=
  ∃ t n, Relay.sendEvent author.b e = .ok t ∧ ∀ k, n < k → ∃ m, (id, m) ∈ forward C relay k open_ t ∧
    ∀ cs chunk, cs.flatten = m → (∀ c ∈ cs, c.length ≤ chunk) → m.length + chunk + 1024 ≤ 10485760 →
      arrive client hasCb past cs = some [.event cb got]

end Nostr.Journey.Post
