import Verif.Event.Model
import Verif.Nip44.Model

/-!
# Model of private messages and gift wraps (src/nip17.c, src/nip59.c)

Random values, the clock and the cryptography are parameters.  Memory allocation succeeds.
-/

namespace Nostr.Gift
open Nostr Nostr.Event

/-- The surroundings: cryptography, configuration, build, platform. -/
structure Env where
  nc : Nip44.Nc
  b64 : Nip44.B64
  crypto : Crypto
  cfg : Option Config.Config
  build : Build
  plat : Plat

/-- What one layer (sl or wrap) draws from outside: the nonce of the encryption, the four random bytes for the
time as a number, the auxiliary randomness of the signature (each `none` if the generator fails), the clock. -/
structure Draw where
  nonce : Option Bytes
  offset : Option Nat
  aux : Option Bytes
  now : Int

/-- nip17.c:24, nip59.c:21 `TWO_DAYS_SECONDS`. -/
def twoDays : Nat := 2 * 24 * 60 * 60

/-- nip17.c:38-53 `random_timestamp_past_two_days`. -/
def pastTwoDays (now : Int) (offset : Option Nat) : Res Int :=
  match offset with
  | none => .err .memory
  | some r => .ok (now - (r % twoDays : Nat))

/-- nip59.c:25-35 `randomize_timestamp`. -/
def randomize (now : Int) (offset : Option Nat) : Int :=
  match offset with
  | none => now
  | some r => now - (r % twoDays : Nat)

/-- nip17.c:55-90 `nostr_nip17_create_rumor`. -/
def createRumor (E : Env) (now : Int) (kind : Nat) (pk content : Bytes) (createdAt : Int) : Res Event :=
  computeId E.crypto E.build { zero with kind := kind, pubkey := pk, createdAt := if createdAt ≠ 0 then createdAt else now,
                                         content := some content } >>= fun e =>
  .ok { e with sig := List.replicate 64 0 }

/-- nip59.c:287-326 `nostr_nip59_create_rumor`. -/
def createRumor59 (E : Env) (now : Int) (kind : Nat) (pk : Bytes) (content : Option Bytes) : Res Event :=
  computeId E.crypto E.build { zero with kind := kind, pubkey := pk, createdAt := now, content := content } >>= fun e =>
  .ok { e with sig := List.replicate 64 0 }

/-- The seal of a given text and time: nip17.c:120-194, nip59.c:68-136 and 359-428 (key, content, id, signature). -/
def sealOf (E : Env) (aux : Option Bytes) (sk : Bytes) (time : Int) (ct : Bytes) : Res Event :=
  match E.crypto.pubOf sk with
  | none => .err .invalidKey
  | some pk =>
      computeId E.crypto E.build { zero with kind := 13, createdAt := time, pubkey := pk, content := some ct } >>= fun e =>
      sign E.crypto E.build aux sk e

/-- nip17.c:92-195 `nostr_nip17_create_seal`. -/
def createSeal (E : Env) (D : Draw) (rumor : Event) (sk rpk : Bytes) : Res Event :=
  toJson E.build rumor >>= fun text =>
  Nip44.encrypt E.nc E.b64 E.cfg D.nonce sk rpk text >>= fun ct =>
  pastTwoDays D.now D.offset >>= fun time =>
  sealOf E D.aux sk time ct

/-- nip59.c:328-429 `nostr_nip59_create_seal`; also nip59.c:55-136, the first half of `nostr_nip59_wrap_event` (which
derives the public key before encrypting: a different error code if both fail). -/
def createSeal59 (E : Env) (D : Draw) (rumor : Event) (sk rpk : Bytes) : Res Event :=
  toJson E.build rumor >>= fun text =>
  Nip44.encrypt E.nc E.b64 E.cfg D.nonce sk rpk text >>= fun ct =>
  sealOf E D.aux sk (randomize D.now D.offset) ct

/-- nip59.c:505-519: tags from consecutive pairs; a last single value is ignored. -/
def pairTags (cfg : Option Config.Config) : Event → List Bytes → Res Event
  | e, a :: b :: ts => addTag cfg e [a, b] >>= fun e1 => pairTags cfg e1 ts
  | e, _ => .ok e

/-- The gift wrap of a given text and time, signed by the ephemeral key `esk`/`epk`: nip17.c:231-289,
nip59.c:170-217 and 473-538. -/
def wrapOf (E : Env) (aux : Option Bytes) (esk epk rpk : Bytes) (time : Int) (extra : List Bytes) (ct : Bytes) : Res Event :=
  addTag E.cfg { zero with kind := 1059, createdAt := time, pubkey := epk, content := some ct } [c!"p", Hex.hexEncode rpk] >>= fun e1 =>
  pairTags E.cfg e1 extra >>= fun e2 =>
  computeId E.crypto E.build e2 >>= fun e3 =>
  sign E.crypto E.build aux esk e3

/-- nip17.c:197-290 `nostr_nip17_create_gift_wrap`; `eph` is the outcome of `nostr_key_generate`. -/
def createWrap (E : Env) (D : Draw) (eph : Res (Bytes × Bytes)) (sl : Event) (rpk : Bytes) : Res Event :=
  eph >>= fun k =>
  toJson E.build sl >>= fun text =>
  Nip44.encrypt E.nc E.b64 E.cfg D.nonce k.1 rpk text >>= fun ct =>
  pastTwoDays D.now D.offset >>= fun time =>
  wrapOf E D.aux k.1 k.2 rpk time [] ct

/-- nip59.c:431-539 `nostr_nip59_create_gift_wrap` (without extra tags also nip59.c:138-218, the second half of
`nostr_nip59_wrap_event`). -/
def createWrap59 (E : Env) (D : Draw) (eph : Res (Bytes × Bytes)) (sl : Event) (rpk : Bytes) (extra : List Bytes) : Res Event :=
  eph >>= fun k =>
  toJson E.build sl >>= fun text =>
  Nip44.encrypt E.nc E.b64 E.cfg D.nonce k.1 rpk text >>= fun ct =>
  wrapOf E D.aux k.1 k.2 rpk (randomize D.now D.offset) extra ct

/-- nip59.c:37-218 `nostr_nip59_wrap_event`; `D1` is drawn for the seal, `D2` for the wrap. -/
def wrapEvent (E : Env) (D1 D2 : Draw) (eph : Res (Bytes × Bytes)) (event : Event) (sk rpk : Bytes) : Res Event :=
  createSeal59 E D1 event sk rpk >>= fun sl => createWrap59 E D2 eph sl rpk []

/-- nip17.c:344-380: the tags of a message: recipient, subject, reply. -/
def dmTags (rpk : Bytes) (subject replyTo : Option Bytes) : List (List Bytes) :=
  [c!"p", Hex.hexEncode rpk] ::
    ((match subject with | none => [] | some s => [[c!"subject", s]]) ++
      (match replyTo with | none => [] | some r => [[c!"e", Hex.hexEncode r]]))

/-- nip17.c:349-380: tags added one after another. -/
def addAll (cfg : Option Config.Config) : Event → List (List Bytes) → Res Event
  | e, [] => .ok e
  | e, t :: ts => addTag cfg e t >>= fun e1 => addAll cfg e1 ts

/-- nip17.c:309-380: the inner message of `nostr_nip17_send_dm`: created, then tagged. -/
def dmRumor (E : Env) (now : Int) (content sk rpk : Bytes) (subject replyTo : Option Bytes) (createdAt : Int) : Res Event :=
  match E.crypto.pubOf sk with
  | none => .err .invalidKey
  | some pk =>
      createRumor E now 14 pk content createdAt >>= fun rumor =>
      addAll E.cfg rumor (dmTags rpk subject replyTo)

/-- nip17.c:292-392 `nostr_nip17_send_dm`. -/
def sendDm (E : Env) (D1 D2 : Draw) (eph : Res (Bytes × Bytes)) (content sk rpk : Bytes) (subject replyTo : Option Bytes)
    (createdAt : Int) : Res Event :=
  dmRumor E D1.now content sk rpk subject replyTo createdAt >>= fun rumor =>
  createSeal E D1 rumor sk rpk >>= fun sl =>
  createWrap E D2 eph sl rpk

/-- `nostr_nip44_decrypt` of a content pointer that may be NULL (nip44.c:381-383), followed by
`nostr_event_from_json` of the C string. -/
def open_ (E : Env) (sk pk : Bytes) (content : Option Bytes) : Res Event :=
  match content with
  | none => .err .invalidParam
  | some t => Nip44.decrypt E.nc E.b64 E.cfg sk pk t >>= fun m => fromJson E.plat E.build E.cfg (Json.cstr m)

/-- nip17.c:408-434, nip59.c:234-263: the verified seal of a gift wrap. -/
def openSeal (E : Env) (wrap : Event) (sk : Bytes) : Res Event :=
  if wrap.kind ≠ 1059 then .err .invalidEvent
  else open_ E sk wrap.pubkey wrap.content >>= fun sl =>
    if sl.kind ≠ 13 then .err .invalidEvent
    else verify E.crypto E.build sl >>= fun _ => .ok sl

/-- What the caller sees: the key stored through the last argument (`none`: not written) and the result. -/
structure Opened where
  sender : Option Bytes
  result : Res Event

/-- nip17.c:394-464 `nostr_nip17_unwrap_dm`. -/
def unwrapDm (E : Env) (wrap : Event) (sk : Bytes) : Opened :=
  match openSeal E wrap sk with
  | .ok sl => ⟨some sl.pubkey, open_ E sk sl.pubkey sl.content >>= fun rumor =>
      if rumor.pubkey ≠ sl.pubkey then .err .invalidEvent else .ok rumor⟩
  | .err e => ⟨none, .err e⟩
  | .ub => ⟨none, .ub⟩

/-- nip59.c:220-285 `nostr_nip59_unwrap_event`. -/
def unwrapEvent (E : Env) (wrap : Event) (sk : Bytes) : Opened :=
  match openSeal E wrap sk with
  | .ok sl => ⟨some sl.pubkey, open_ E sk sl.pubkey sl.content⟩
  | .err e => ⟨none, .err e⟩
  | .ub => ⟨none, .ub⟩

end Nostr.Gift
