import Verif.Json.Model
import Verif.Config.Model

/-!
# Model of events (src/event.c)

Events are values: the tag arena is abstracted to the list of tag values (its byte-level behaviour is
modelled in `Verif/Arena`).  Memory allocation succeeds unless stated otherwise.
-/

namespace Nostr.Event
open Nostr Nostr.Json

/-- include/nostr.h `nostr_event`: `content = none` is the NULL pointer. -/
structure Event where
  id : Bytes
  pubkey : Bytes
  createdAt : Int
  kind : Nat
  tags : List (List Bytes)
  content : Option Bytes
  sig : Bytes
  deriving DecidableEq, Repr

/-- `event->content ? event->content : ""`. -/
def Event.text (e : Event) : Bytes := e.content.getD []

/-- A calloc'ed event: all zero (event.c:87-104 `nostr_event_create` then sets `created_at`). -/
def zero : Event :=
  ⟨List.replicate 32 0, List.replicate 32 0, 0, 0, [], none, List.replicate 64 0⟩

/-- event.c:134-225 `nostr_event_add_tag` on the level of tag values. -/
def addTag (cfg : Option Config.Config) (e : Event) (values : List Bytes) : Res Event :=
  if values = [] then .err .invalidParam
  else if cfg.any (fun c => decide (e.tags.length ≥ c.maxTags)) then .err .invalidParam
  else .ok { e with tags := e.tags ++ [values] }

/-! ## Serialisation for the id -/

/-- Output position and text written so far into a buffer of `size` bytes. -/
structure Wr where
  size : Nat
  buf : Bytes
  pos : Nat
  deriving DecidableEq, Repr

/-- `result[pos++] = c`. -/
def Wr.put (w : Wr) (c : UInt8) : Res Wr :=
  if w.pos < w.size then .ok { w with buf := w.buf.take w.pos ++ [c], pos := w.pos + 1 } else .ub

/-- `pos += snprintf(result + pos, json_size - pos, …)` printing `text`: `json_size - pos` is unsigned,
so a position behind the end makes the bound huge. -/
def Wr.printf (w : Wr) (text : Bytes) : Res Wr :=
  if w.pos > w.size then .ub
  else if w.pos = w.size then .ok { w with pos := w.pos + text.length }
  else .ok { w with buf := w.buf.take w.pos ++ text.take (w.size - w.pos - 1), pos := w.pos + text.length }

/-- event.c:344-355: values of one tag; `first` is `j == 0`. -/
def putValues (w : Wr) (first : Bool) : List Bytes → Res Wr
  | [] => .ok w
  | v :: vs =>
      (if first then .ok w else w.put 0x2c) >>= fun w1 =>
      w1.printf (quoted v) >>= fun w2 => putValues w2 false vs

/-- event.c:341-357: all tags; `first` is `i == 0`. -/
def putTags (w : Wr) (first : Bool) : List (List Bytes) → Res Wr
  | [] => .ok w
  | t :: ts =>
      (if first then .ok w else w.put 0x2c) >>= fun w1 =>
      w1.put 0x5b >>= fun w2 =>
      putValues w2 true t >>= fun w3 =>
      w3.put 0x5d >>= fun w4 => putTags w4 false ts

/-- event.c:325-330: the buffer size computed beforehand. -/
def jsonSize (e : Event) : Nat :=
  512 + (escape e.text).length +
    (e.tags.map fun t => (t.map fun v => v.length * 6 + 4).sum).sum

/-- event.c:315-363 `serialize_for_id`, build without cJSON. The result is the C string in the buffer;
if the last `snprintf` had no room at all, no terminator is written and the later `strlen` runs off the
buffer. -/
def serializePlain (e : Event) : Res Bytes :=
  let size := jsonSize e
  (Wr.mk size [] 0).printf (c!"[0,\"" ++ Hex.hexEncode e.pubkey ++ c!"\"," ++ Num.decInt e.createdAt ++
      c!"," ++ Num.decNat e.kind ++ c!",[") >>= fun w1 =>
  putTags w1 true e.tags >>= fun w2 =>
  if w2.pos ≥ w2.size then .ub
  else w2.printf (c!"],\"" ++ escape e.text ++ c!"\"]") >>= fun w3 => .ok w3.buf

/-- event.c:283-314 `serialize_for_id`, build with cJSON: the array that is printed unformatted. -/
def idTree (toDouble : Int → Int) (fmtReal : Int → Bytes) (e : Event) : Json :=
  .arr [.num (numTok toDouble fmtReal 0), .str (Hex.hexEncode e.pubkey),
    .num (numTok toDouble fmtReal e.createdAt), .num (numTok toDouble fmtReal e.kind),
    .arr (e.tags.map fun t => .arr (t.map .str)), .str e.text]

/-- The two build configurations. The parameters of the cJSON build are the conversion of large integers
to `double` and their printing. -/
inductive Build
  | plain
  | cjson (toDouble : Int → Int) (fmtReal : Int → Bytes)

/-- event.c:283-364 `serialize_for_id`. -/
def serialize (b : Build) (e : Event) : Res Bytes :=
  match b with
  | .plain => serializePlain e
  | .cjson td fr => .ok (print false 0 (idTree td fr e))

/-! ## Id, signing, verification -/

/-- The cryptographic primitives: SHA-256, public key of a secret key, BIP-340 signing (with auxiliary
randomness) and verification, validity of a public key. -/
structure Crypto where
  sha256 : Bytes → Bytes
  pubOf : Bytes → Option Bytes
  sign : Bytes → Bytes → Bytes → Option Bytes
  validPub : Bytes → Bool
  verify : Bytes → Bytes → Bytes → Bool

/-- event.c:366-383 `nostr_event_compute_id`. -/
def computeId (C : Crypto) (b : Build) (e : Event) : Res Event :=
  serialize b e >>= fun t => .ok { e with id := C.sha256 t }

/-- event.c:593-692 `nostr_event_sign`; `rand` is the result of the random generator (`none` = failure).
On error the event may have been partly updated; the model returns only the error. -/
def sign (C : Crypto) (b : Build) (rand : Option Bytes) (sk : Bytes) (e : Event) : Res Event :=
  match C.pubOf sk with
  | none => .err .invalidKey
  | some pk =>
      computeId C b { e with pubkey := pk } >>= fun e1 =>
      match rand with
      | none => .err .memory
      | some r => match C.sign sk e1.id r with
          | none => .err .invalidSignature
          | some s => .ok { e1 with sig := s }

/-- event.c:694-762 `nostr_event_verify`. -/
def verify (C : Crypto) (b : Build) (e : Event) : Res Unit :=
  computeId C b e >>= fun t =>
  if Hex.ctMemcmp e.id t.id ≠ 0 then .err .invalidEvent
  else if !C.validPub e.pubkey then .err .invalidKey
  else if !C.verify e.pubkey e.id e.sig then .err .invalidSignature
  else .ok ()

/-! ## JSON -/

/-- event.c:385-440 `nostr_event_to_json` (cJSON build): the object that is printed formatted. -/
def toTree (toDouble : Int → Int) (fmtReal : Int → Bytes) (e : Event) : Json :=
  .obj [(c!"id", .str (Hex.hexEncode e.id)), (c!"pubkey", .str (Hex.hexEncode e.pubkey)),
    (c!"created_at", .num (numTok toDouble fmtReal e.createdAt)),
    (c!"kind", .num (numTok toDouble fmtReal e.kind)),
    (c!"tags", .arr (e.tags.map fun t => .arr (t.map .str))),
    (c!"content", .str e.text), (c!"sig", .str (Hex.hexEncode e.sig))]

/-- event.c:385-440 `nostr_event_to_json`. -/
def toJson (b : Build) (e : Event) : Res Bytes :=
  match b with
  | .plain => .err .notSupported
  | .cjson td fr => .ok (print true 0 (toTree td fr e))

/-- event.c:442-454 `hex_to_bytes` (`sscanf("%2hhx")`, same loop as in key.c); `none` is failure. -/
def hexToBytes (lax0x : Bool) (s : Bytes) (n : Nat) : Option Bytes :=
  if s.length ≠ n * 2 then none
  else match Hex.keyLoop lax0x n s with
    | .ok b => some b
    | _ => none

/-- Parameters of JSON reading that depend on the platform: numbers that are not plain integers, and
`sscanf` on "0x". -/
structure Plat where
  real : Bytes → Int
  lax0x : Bool

/-- The optional hex field `key` of the object, event.c:480-487: absent or not a string keeps the old
value, malformed is an error. -/
def hexField (P : Plat) (root : Json) (key : Bytes) (n : Nat) (old : Bytes) : Res Bytes :=
  match (get root key).bind asStr with
  | none => .ok old
  | some s => match hexToBytes P.lax0x s n with
      | none => .err .invalidEvent
      | some b => .ok b

/-- event.c:554-561: the values of one tag; non-strings become "". -/
def tagValues (l : List Json) : List Bytes := l.map fun j => (asStr j).getD []

/-- event.c:541-573: the tag loop; non-arrays and empty arrays are skipped. -/
def addTags (cfg : Option Config.Config) : Event → List Json → Res Event
  | e, [] => .ok e
  | e, j :: js =>
      match asArr j with
      | some (v :: vs) =>
          match addTag cfg e (tagValues (v :: vs)) with
          | .ok e1 => addTags cfg e1 js
          | .err _ => .err .memory
          | .ub => .ub
      | _ => addTags cfg e js

/-- event.c:508-522: the content field. -/
def contentField (cfg : Option Config.Config) (root : Json) : Res (Option Bytes) :=
  match (get root (c!"content")).bind asStr with
  | none => .ok none
  | some s => if cfg.any (fun c => decide (s.length > c.maxContent)) then .err .invalidParam else .ok (some s)

/-- event.c:524-575: the tags field. `max_tags` fits an `int` (line 528): at most 1000 (config.c:146, C44). -/
def tagsField (cfg : Option Config.Config) (root : Json) (e : Event) : Res Event :=
  match (get root (c!"tags")).bind asArr with
  | none => .ok e
  | some l =>
      if cfg.any (fun c => decide (l.length > c.maxTags)) then .err .invalidParam else addTags cfg e l

/-- event.c:498-506: `kind` is `(uint16_t) valueint`, `created_at` is `(int64_t) valuedouble`. -/
def numFields (P : Plat) (root : Json) : Int × Nat :=
  (match (get root (c!"created_at")).bind asNum with
    | none => 0
    | some t => int64 P.real t,
   match (get root (c!"kind")).bind asNum with
    | none => 0
    | some t => (valueint P.real t % 65536).toNat)

/-- event.c:464-586: the part of `nostr_event_from_json` after parsing. -/
def fromTree (P : Plat) (cfg : Option Config.Config) (root : Json) : Res Event :=
  hexField P root (c!"id") 32 zero.id >>= fun id =>
  hexField P root (c!"pubkey") 32 zero.pubkey >>= fun pk =>
  contentField cfg root >>= fun content =>
  tagsField cfg root ⟨id, pk, (numFields P root).1, (numFields P root).2, [], content, zero.sig⟩ >>= fun e =>
  hexField P root (c!"sig") 64 zero.sig >>= fun sig =>
  .ok { e with sig := sig }

/-- event.c:456-591 `nostr_event_from_json`. -/
def fromJson (P : Plat) (b : Build) (cfg : Option Config.Config) (s : Bytes) : Res Event :=
  match b with
  | .plain => .err .notSupported
  | .cjson _ _ => match parse s with
      | none => .err .jsonParse
      | some root => fromTree P cfg root

/-- Whether `*event` is usable after the call: every error path after event.c:474 has stored a pointer
in `*event` and then freed the object (e.g. event.c:482-486). -/
inductive OutPtr
  | untouched
  | valid
  | dangling
  deriving DecidableEq, Repr

/-- event.c:456-591: state of the caller's pointer after `nostr_event_from_json`. -/
def fromJsonPtr (P : Plat) (b : Build) (cfg : Option Config.Config) (s : Bytes) : OutPtr :=
  match b with
  | .plain => .untouched
  | .cjson _ _ => match parse s with
      | none => .untouched
      | some root => match fromTree P cfg root with
          | .ok _ => .valid
          | _ => .dangling

end Nostr.Event
