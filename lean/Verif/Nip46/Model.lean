import Verif.Nip47.Model

/-!
# Model of remote signing (src/nip46.c)

Memory allocation succeeds; builds with cJSON and NIP-44. `r` is the effect of storing a number as a `double` and
printing it again (`Verif/Json/Reprint.lean`).
-/

namespace Nostr.Nip46
open Nostr Nostr.Event Nostr.Json

/-- include/nostr.h:938 `NOSTR_NIP46_KIND`. -/
def kind46 : Nat := 24133

/-- include/nostr.h:940-946 `nostr_nip46_request_t`; `params_len` (nip46.c:57) is the length of `params`. -/
structure Request where
  id : Bytes
  method : Bytes
  params : Option Bytes
  sender : Bytes
  deriving DecidableEq, Repr

/-- include/nostr.h:948-952 `nostr_nip46_response_t`. -/
structure Response where
  id : Bytes
  result : Option Bytes
  error : Option Bytes
  deriving DecidableEq, Repr

/-- nip46.c:42-50: `strncpy` of a string member into a zeroed array of `n + 1` characters; nothing is copied if the
member is missing or not a string. -/
def field (n : Nat) (root : Json) (name : Bytes) : Bytes := (((get root name).bind asStr).getD []).take n

/-- nip46.c:36-62: the decrypted C string read as a request. -/
def requestOf (r : Bytes → Json) (sender text : Bytes) : Res Request :=
  match parse text with
  | none => .err .jsonParse
  | some root => .ok ⟨field 64 root (c!"id"), field 31 root (c!"method"), (get root (c!"params")).map (reprint r), sender⟩

/-- nip46.c:12-71 `nostr_nip46_parse_request`. -/
def parseRequest (E : Nip47.Env) (r : Bytes → Json) (e : Event) (sk : Bytes) : Res Request :=
  if e.kind ≠ kind46 then .err .invalidEvent
  else match e.content with
    | none => .err .invalidParam
    | some t => Nip44.decrypt E.nc E.b64 E.cfg sk e.pubkey t >>= fun d => requestOf r e.pubkey (cstr d)

/-- nip46.c:86-95: the member added for the outcome. -/
def outcome (r : Bytes → Json) (p : Response) : List (Bytes × Json) :=
  match p.error with
  | some t => [(c!"error", .str t)]
  | none => match p.result with
    | none => []
    | some t => match parse t with
      | some j => [(c!"result", mapNum r j)]
      | none => [(c!"result", .str t)]

/-- nip46.c:79-101: the text of a response. -/
def responseText (r : Bytes → Json) (p : Response) : Bytes := print false 0 (.obj ((c!"id", .str p.id) :: outcome r p))

/-- nip46.c:126-129: the outcome of adding the tag is ignored. -/
def addP (cfg : Option Config.Config) (e : Event) (pk : Bytes) : Event :=
  match addTag cfg e [c!"p", Hex.hexEncode pk] with
  | .ok e1 => e1
  | _ => e

/-- nip46.c:73-152 `nostr_nip46_create_response`; `nonce` and `aux` are random, `now` is the time. -/
def createResponse (E : Nip47.Env) (r : Bytes → Json) (now : Int) (nonce aux : Option Bytes) (p : Response)
    (sk peer : Bytes) : Res Event :=
  Nip44.encrypt E.nc E.b64 E.cfg nonce sk peer (responseText r p) >>= fun ct =>
  computeId E.crypto E.build (addP E.cfg { zero with kind := kind46, createdAt := now, content := some ct } peer) >>= fun e1 =>
  sign E.crypto E.build aux sk e1

end Nostr.Nip46
