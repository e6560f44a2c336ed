import Verif.Text
import Verif.RelayProto.Model
import Verif.Nip44.Model
import Verif.Json.Reprint

/-!
# Model of wallet connect (src/nip47.c, src/nip47_commands.c)

Sessions are in `Verif/Session`. Memory allocation succeeds. `HAVE_CJSON` builds unless stated otherwise.
-/

namespace Nostr.Nip47
open Nostr Nostr.Event Nostr.Json Nostr.RelayProto

/-! ## Connection URIs -/

/-- nip47.c:118-121 and 140-143: `strtol` to base 16 on a text of two characters, with both consumed; the value
is converted to a byte. A blank or a sign may stand in place of the first digit. -/
def hexPair (a b : UInt8) : Option UInt8 :=
  match Hex.nibble b with
  | none => none
  | some v => match Hex.nibble a with
      | some u => some (UInt8.ofNat (u * 16 + v))
      | none =>
          if Hex.isSpace a = true ∨ a = 0x2b then some (UInt8.ofNat v)
          else if a = 0x2d then some (0 - UInt8.ofNat v)
          else none

/-- nip47.c:117-123: the loop of `hex_decode`. -/
def hexPairs : Bytes → Option Bytes
  | a :: b :: s => match hexPair a b with
      | none => none
      | some v => (hexPairs s).map (v :: ·)
  | _ => some []

/-- nip47.c:113-126 `hex_decode`. -/
def hexDecode (s : Bytes) (n : Nat) : Option Bytes := if s.length ≠ n * 2 then none else hexPairs s

/-- nip47.c:136-149: the loop of `url_decode`. -/
def urlBytes : Bytes → Bytes
  | c :: a :: b :: r =>
      if c = 0x25 then
        match hexPair a b with
        | some v => v :: urlBytes r
        | none => c :: urlBytes (a :: b :: r)
      else c :: urlBytes (a :: b :: r)
  | s => s

/-- nip47.c:128-153 `url_decode`: the C string in the result. -/
def urlDecode (s : Bytes) : Bytes := cstr (urlBytes s)

/-- nip47.c:67-73 `struct nwc_connection`, and `has_secret` (line 194) as `secret ≠ none`. -/
structure Conn where
  relays : List Bytes
  secret : Option Bytes
  key : Bytes
  lud16 : Option Bytes
  deriving DecidableEq, Repr

/-- nip47.c:199-250: one parameter. The array of relays grows by doubling. -/
def param (c : Conn) (p : Bytes) : Res Conn :=
  match strchr 0x3d p with
  | none => .ok c
  | some (name, value) =>
      if name = c!"relay" then .ok { c with relays := c.relays ++ [urlDecode value] }
      else if name = c!"secret" then
        if value.length ≠ 64 then .err .invalidParam
        else match hexDecode value 32 with
          | none => .err .invalidParam
          | some b => .ok { c with secret := some b }
      else if name = c!"lud16" then .ok { c with lud16 := some (urlDecode value) }
      else .ok c

/-- nip47.c:198-253: all parameters. -/
def params : Conn → List Bytes → Res Conn
  | c, [] => .ok c
  | c, p :: ps => param c p >>= fun c1 => params c1 ps

/-- nip47.c:161. -/
def scheme : Bytes := c!"nostr+walletconnect://"

/-- nip47.c:155-264 `nostr_nip47_parse_connection_uri`. -/
def parseUri (uri : Bytes) : Res Conn :=
  if uri.take scheme.length ≠ scheme then .err .invalidParam
  else match strchr 0x3f (uri.drop scheme.length) with
    | none => .err .invalidParam
    | some (k, query) =>
        if k.length ≠ 64 then .err .invalidParam
        else match hexDecode k 32 with
          | none => .err .invalidParam
          | some key =>
              params ⟨[], none, key, none⟩ (Text.tokens 0x26 query) >>= fun c =>
              if c.secret = none ∨ c.relays = [] then .err .invalidParam else .ok c

/-! ## Escaping -/

/-- nip47.c:34-60: the text for one character. -/
def escChar47 (c : UInt8) : Bytes :=
  if c = 0x22 then [0x5c, 0x22]
  else if c = 0x5c then [0x5c, 0x5c]
  else if c = 0x0a then [0x5c, 0x6e]
  else if c = 0x0d then [0x5c, 0x72]
  else if c = 0x09 then [0x5c, 0x74]
  else if c < 0x20 then [0x5c, 0x75, 0x30, 0x30, Hex.digit (c.toNat / 16), Hex.digit (c.toNat % 16)]
  else [c]

/-- nip47.c:33-61: the loop; `pos` bytes are written, `room = dest_size - 1`. -/
def escLoop (room : Nat) : Nat → Bytes → Bytes
  | _, [] => []
  | pos, c :: s =>
      if pos + (escChar47 c).length > room then []
      else escChar47 c ++ escLoop room (pos + (escChar47 c).length) s

/-- nip47.c:29-65 `nip47_json_escape`: the C string in a destination of `size` bytes (`none`: nothing is
written). -/
def jsonEscape (size : Nat) (s : Bytes) : Option Bytes :=
  if size = 0 then none else some (escLoop (size - 1) 0 s)

/-! ## Requests and responses -/

/-- nip47.c:498-520: the text that is encrypted (with cJSON): the parameters have to parse; the text is cut at
8191 bytes. -/
def payload (method paramsJson : Bytes) : Res Bytes :=
  match parse paramsJson with
  | none => .err .invalidParam
  | some _ =>
      .ok ((c!"{\"method\":\"" ++ (jsonEscape 256 method).getD [] ++ c!"\",\"params\":" ++ paramsJson ++ c!"}").take 8191)

/-- The surroundings: cryptography for NIP-44 and for events, configuration, build. -/
structure Env where
  nc : Nip44.Nc
  b64 : Nip44.B64
  crypto : Crypto
  cfg : Option Config.Config
  build : Build

/-- nip47.c:415-554 `nostr_nip47_create_request_event` with NIP-44; `nonce` and `aux` are random, `now` is the
time. `set_content` (line 515) stores the text. -/
def request (E : Env) (now : Int) (nonce aux : Option Bytes) (sk wallet method paramsJson : Bytes) : Res Event :=
  match E.crypto.pubOf sk with
  | none => .err .invalidKey
  | some pk =>
      addTag E.cfg { zero with kind := 23194, createdAt := now, pubkey := pk } [c!"p", Hex.hexEncode wallet] >>= fun e1 =>
      addTag E.cfg e1 [c!"encryption", c!"nip44_v2"] >>= fun e2 =>
      payload method paramsJson >>= fun text =>
      Nip44.encrypt E.nc E.b64 E.cfg nonce sk wallet text >>= fun ct =>
      computeId E.crypto E.build { e2 with content := some ct } >>= fun e3 =>
      sign E.crypto E.build aux sk e3

/-- nip47.c:566-577: the key used for the other side: the first `p` value that decodes, else the author. -/
def peer (e : Event) : Bytes :=
  (e.tags.findSome? fun t => match t with
    | n :: v :: _ => if n = c!"p" then hexDecode v 32 else none
    | _ => none).getD e.pubkey

/-- nip47.c:582-590: the first `encryption` tag names NIP-44. -/
def saysNip44 : List (List Bytes) → Bool
  | [] => false
  | (n :: v :: _) :: ts => if n = c!"encryption" then Text.contains (c!"nip44") v else saysNip44 ts
  | _ :: ts => saysNip44 ts

/-- What `nostr_nip47_parse_response_event` stores; `none` leaves the variable alone. -/
structure Reply where
  type : Option Bytes
  result : Option Bytes
  code : Option Bytes
  message : Option Bytes
  deriving DecidableEq, Repr

/-- nip47.c:607-650: the fields of the decrypted text. -/
def replyOf (r : Bytes → Json) (text : Bytes) : Res Reply :=
  match parse text with
  | none => .err .invalidParam
  | some root => .ok ⟨(get root (c!"result_type")).bind asStr, (get root (c!"result")).map (reprint r),
      ((get root (c!"error")).bind (get · (c!"code"))).bind asStr,
      ((get root (c!"error")).bind (get · (c!"message"))).bind asStr⟩

/-- nip47.c:556-604: decryption of a response. -/
def openResponse (E : Env) (e : Event) (sk : Bytes) : Res Bytes :=
  if e.kind ≠ 23195 then .err .invalidParam
  else if saysNip44 e.tags then
    match e.content with
    | none => .err .invalidParam
    | some t => Nip44.decrypt E.nc E.b64 E.cfg sk (peer e) t
  else .err .notSupported

/-- nip47.c:556-656 `nostr_nip47_parse_response_event`. -/
def parseResponse (E : Env) (r : Bytes → Json) (e : Event) (sk : Bytes) : Res Reply :=
  openResponse E e sk >>= fun t => replyOf r (cstr t)

/-- nip47.c:786-844 `nostr_nip47_parse_notification_event`: type and text of the notification. -/
def parseNotification (E : Env) (r : Bytes → Json) (e : Event) (sk : Bytes) : Res (Option Bytes × Option Bytes) :=
  if e.kind ≠ 23197 ∧ e.kind ≠ 23196 then .err .invalidParam
  else if e.kind = 23196 then .err .notSupported
  else match e.content with
    | none => .err .invalidParam
    | some t => Nip44.decrypt E.nc E.b64 E.cfg sk e.pubkey t >>= fun d =>
        match parse (cstr d) with
        | none => .err .invalidParam
        | some root => .ok ((get root (c!"notification_type")).bind asStr, (get root (c!"notification")).map (reprint r))

/-! ## Info events -/

/-- nip47.c:281-308: the words of a text, at most one more than the blanks (the size of the array). -/
def words (s : Bytes) : List Bytes := (Text.tokens 0x20 s).take (s.count 0x20 + 1)

/-- nip47.c:313-355 and 357-399: the words of the first tag with this name. -/
def tagWords (name : Bytes) (tags : List (List Bytes)) : List Bytes :=
  match tagValue tags name with
  | none => []
  | some v => words v

/-- nip47.c:266-413 `nostr_nip47_parse_info_event` with all arguments given: capabilities, notifications,
encryptions. A NULL content is passed to `strdup`. -/
def parseInfo (e : Event) : Res (List Bytes × List Bytes × List Bytes) :=
  if e.kind ≠ 13194 then .err .invalidParam
  else match e.content with
    | none => .ub
    | some t => .ok (words t, tagWords (c!"notifications") e.tags, tagWords (c!"encryption") e.tags)

/-! ## Parameters -/

/-- `if (x) cJSON_AddStringToObject(params, name, x)`. -/
def strField (name : Bytes) : Option Bytes → List (Bytes × Json)
  | none => []
  | some s => [(name, .str s)]

/-- `if (x) cJSON_AddNumberToObject(params, name, *x)`. -/
def numField (td : Int → Int) (fr : Int → Bytes) (name : Bytes) : Option Int → List (Bytes × Json)
  | none => []
  | some n => [(name, .num (numTok td fr n))]

/-- `if (x) cJSON_AddBoolToObject(params, name, *x)`. -/
def boolField (name : Bytes) : Option Bool → List (Bytes × Json)
  | none => []
  | some b => [(name, if b then .tru else .fls)]

/-- nip47.c:658-682 `nostr_nip47_create_pay_invoice_params` (with cJSON). -/
def payInvoice (td : Int → Int) (fr : Int → Bytes) (invoice : Bytes) (amount : Option Nat) : Bytes :=
  print false 0 (.obj ((c!"invoice", .str invoice) :: numField td fr (c!"amount") (amount.map fun (n : Nat) => (n : Int))))

/-- nip47.c:683-697: the same without cJSON. -/
def payInvoicePlain (invoice : Bytes) (amount : Option Nat) : Bytes :=
  ((c!"{\"invoice\":\"" ++ (jsonEscape 4096 invoice).getD [] ++ c!"\"" ++
    (match amount with | none => [] | some n => c!",\"amount\":" ++ Num.decNat n)) ++ c!"}").take 4095

/-- nip47.c:717-750 `nostr_nip47_create_make_invoice_params` (with cJSON). -/
def makeInvoice (td : Int → Int) (fr : Int → Bytes) (amount : Nat) (descr hash : Option Bytes) (expiry : Option Nat) :
    Res Bytes :=
  if amount = 0 then .err .invalidParam
  else .ok (print false 0 (.obj ((c!"amount", .num (numTok td fr amount)) ::
    (strField (c!"description") descr ++ strField (c!"description_hash") hash ++
      numField td fr (c!"expiry") (expiry.map fun (n : Nat) => (n : Int))))))

/-- A sequence of `pos += snprintf(buffer + pos, sizeof(buffer) - pos, …)`. -/
def printAll (w : Wr) : List Bytes → Res Wr
  | [] => .ok w
  | t :: ts => w.printf t >>= fun w1 => printAll w1 ts

/-- The C string in a buffer of `size` bytes after the pieces have been printed. -/
def printed (size : Nat) (pieces : List Bytes) : Res Bytes := printAll ⟨size, [], 0⟩ pieces >>= fun w => .ok w.buf

/-- `if (x) pos += snprintf(…)`. -/
def piece (o : Option Bytes) : List Bytes := o.toList

/-- nip47.c:751-780: `nostr_nip47_create_make_invoice_params` without cJSON. -/
def makeInvoicePlain (amount : Nat) (descr hash : Option Bytes) (expiry : Option Nat) : Res Bytes :=
  if amount = 0 then .err .invalidParam
  else printed 4096 ((c!"{\"amount\":" ++ Num.decNat amount) ::
    (piece (descr.map fun s => c!",\"description\":\"" ++ (jsonEscape 2048 s).getD [] ++ c!"\"") ++
     piece (hash.map fun s => c!",\"description_hash\":\"" ++ (jsonEscape 2048 s).getD [] ++ c!"\"") ++
     piece (expiry.map fun n => c!",\"expiry\":" ++ Num.decNat n) ++ [c!"}"]))

/-- nip47_commands.c:11-54 `nostr_nip47_create_list_transactions_params` (with cJSON). -/
def listTx (td : Int → Int) (fr : Int → Bytes) (fromT untilT : Option Int) (limit offset : Option Nat) (unpaid : Option Bool)
    (type : Option Bytes) : Bytes :=
  print false 0 (.obj (numField td fr (c!"from") fromT ++ numField td fr (c!"until") untilT ++
    numField td fr (c!"limit") (limit.map fun (n : Nat) => (n : Int)) ++ numField td fr (c!"offset") (offset.map fun (n : Nat) => (n : Int)) ++
    boolField (c!"unpaid") unpaid ++ strField (c!"type") type))

/-- `%s` with `first ? "" : ","` in front of every piece but the first. -/
def commas : List Bytes → List Bytes
  | [] => []
  | t :: ts => t :: ts.map (c!"," ++ ·)

/-- nip47_commands.c:55-100: the same without cJSON; the type is not escaped. -/
def listTxPlain (fromT untilT : Option Int) (limit offset : Option Nat) (unpaid : Option Bool) (type : Option Bytes) :
    Res Bytes :=
  printed 4096 (c!"{" :: (commas (piece (fromT.map fun n => c!"\"from\":" ++ Num.decInt n) ++
    piece (untilT.map fun n => c!"\"until\":" ++ Num.decInt n) ++
    piece (limit.map fun n => c!"\"limit\":" ++ Num.decNat n) ++
    piece (offset.map fun n => c!"\"offset\":" ++ Num.decNat n) ++
    piece (unpaid.map fun b => c!"\"unpaid\":" ++ (if b then c!"true" else c!"false")) ++
    piece (type.map fun s => c!"\"type\":\"" ++ s ++ c!"\"")) ++ [c!"}"]))

/-- nip47_commands.c:106-132 `nostr_nip47_create_lookup_invoice_params` (with cJSON). -/
def lookupInvoice (hash invoice : Option Bytes) : Res Bytes :=
  if hash = none ∧ invoice = none then .err .invalidParam
  else .ok (print false 0 (.obj (strField (c!"payment_hash") hash ++ strField (c!"invoice") invoice)))

/-- nip47_commands.c:133-151: the same without cJSON; the texts are not escaped. -/
def lookupInvoicePlain (hash invoice : Option Bytes) : Res Bytes :=
  if hash = none ∧ invoice = none then .err .invalidParam
  else printed 4096 (c!"{" :: (commas (piece (hash.map fun s => c!"\"payment_hash\":\"" ++ s ++ c!"\"") ++
    piece (invoice.map fun s => c!"\"invoice\":\"" ++ s ++ c!"\"")) ++ [c!"}"]))

/-- nip47_commands.c:185-199: type and value alternate; an odd last entry is skipped. -/
def tlvPairs : List Bytes → List (Bytes × Bytes)
  | t :: v :: r => (t, v) :: tlvPairs r
  | _ => []

/-- nip47_commands.c:187-197: one record. -/
def tlvTree (td : Int → Int) (fr : Int → Bytes) (p : Bytes × Bytes) : Json :=
  .obj [(c!"type", .num (numTok td fr (Num.strtol p.1).1)), (c!"value", .str p.2)]

/-- nip47_commands.c:178-202: the member with the records, if there are any. -/
def tlvField (td : Int → Int) (fr : Int → Bytes) (tlv : List Bytes) : List (Bytes × Json) :=
  if tlv = [] then [] else [(c!"tlv_records", .arr ((tlvPairs tlv).map (tlvTree td fr)))]

/-- nip47_commands.c:157-209 `nostr_nip47_create_pay_keysend_params` (with cJSON). -/
def payKeysend (td : Int → Int) (fr : Int → Bytes) (amount : Nat) (pubkey : Bytes) (preimage : Option Bytes)
    (tlv : List Bytes) : Res Bytes :=
  if amount = 0 then .err .invalidParam
  else .ok (print false 0 (.obj ((c!"amount", .num (numTok td fr amount)) :: (c!"pubkey", .str pubkey) ::
    (strField (c!"preimage") preimage ++ tlvField td fr tlv))))

/-- nip47_commands.c:224-233: pieces for the records; `first` is `i == 0`. -/
def tlvPieces (first : Bool) : List (Bytes × Bytes) → List Bytes
  | [] => []
  | p :: ps => (if first then [] else [c!","]) ++
      [c!"{\"type\":" ++ p.1 ++ c!",\"value\":\"" ++ p.2 ++ c!"\"}"] ++ tlvPieces false ps

/-- nip47_commands.c:210-243: `nostr_nip47_create_pay_keysend_params` without cJSON; nothing is escaped. -/
def payKeysendPlain (amount : Nat) (pubkey : Bytes) (preimage : Option Bytes) (tlv : List Bytes) : Res Bytes :=
  if amount = 0 then .err .invalidParam
  else printed 8192 ((c!"{\"amount\":" ++ Num.decNat amount ++ c!",\"pubkey\":\"" ++ pubkey ++ c!"\"") ::
    (piece (preimage.map fun s => c!",\"preimage\":\"" ++ s ++ c!"\"") ++
     (if tlv = [] then [] else c!",\"tlv_records\":[" :: (tlvPieces true (tlvPairs tlv) ++ [c!"]"])) ++ [c!"}"]))

/-- One payment of several: id, invoice, amount (0: none). -/
structure Pay where
  id : Option Bytes
  invoice : Bytes
  amount : Nat
  deriving DecidableEq, Repr

/-- nip47_commands.c:271-289: one invoice. -/
def payTree (td : Int → Int) (fr : Int → Bytes) (p : Pay) : Json :=
  .obj (strField (c!"id") p.id ++ [(c!"invoice", .str p.invoice)] ++
    (if p.amount > 0 then [(c!"amount", .num (numTok td fr p.amount))] else []))

/-- nip47_commands.c:249-298 `nostr_nip47_create_multi_pay_invoice_params` (with cJSON). -/
def multiPay (td : Int → Int) (fr : Int → Bytes) (l : List Pay) : Res Bytes :=
  if l = [] then .err .invalidParam
  else .ok (print false 0 (.obj [(c!"invoices", .arr (l.map (payTree td fr)))]))

/-- nip47_commands.c:303-325: pieces for the invoices; `first` is `i == 0`. -/
def payPieces (first : Bool) : List Pay → List Bytes
  | [] => []
  | p :: ps => (if first then [] else [c!","]) ++ [c!"{"] ++
      piece (p.id.map fun s => c!"\"id\":\"" ++ s ++ c!"\",") ++ [c!"\"invoice\":\"" ++ p.invoice ++ c!"\""] ++
      (if p.amount > 0 then [c!",\"amount\":" ++ Num.decNat p.amount] else []) ++ [c!"}"] ++ payPieces false ps

/-- nip47_commands.c:299-331: the same without cJSON; nothing is escaped. -/
def multiPayPlain (l : List Pay) : Res Bytes :=
  if l = [] then .err .invalidParam
  else printed 16384 (c!"{\"invoices\":[" :: (payPieces true l ++ [c!"]}"]))

/-! ## Results -/

/-- Conversion of a number to `uint64_t`; undefined for negative numbers. -/
def toU64 (real : Bytes → Int) (t : Bytes) : Res Nat :=
  if int64 real t < 0 ∨ int64 real t ≥ 2 ^ 64 then .ub else .ok (int64 real t).toNat

/-- nip47_commands.c:351-371 `nostr_nip47_parse_balance_response` (with cJSON). -/
def parseBalance (real : Bytes → Int) (json : Bytes) : Res Nat :=
  match parse json with
  | none => .err .invalidParam
  | some root => match (get root (c!"balance")).bind asNum with
      | none => .err .invalidParam
      | some t => toU64 real t

/-- nip47_commands.c:386-413 `nostr_nip47_parse_pay_invoice_response` (with cJSON): preimage and fees, `none`
leaves the variable alone. -/
def parsePaid (real : Bytes → Int) (json : Bytes) : Res (Option Bytes × Option Nat) :=
  match parse json with
  | none => .err .invalidParam
  | some root => match (get root (c!"fees_paid")).bind asNum with
      | none => .ok ((get root (c!"preimage")).bind asStr, none)
      | some t => toU64 real t >>= fun n => .ok ((get root (c!"preimage")).bind asStr, some n)

/-- nip47_commands.c:493-507: the `methods` array; `none` is an entry that is left uninitialised. -/
def methodsOf (root : Json) : Option (List (Option Bytes)) :=
  ((get root (c!"methods")).bind asArr).map fun l => l.map asStr

/-- nip47_commands.c:444-509 `nostr_nip47_parse_info_response` (with cJSON): alias and methods (colour, key and
network are read like the alias; the block height is not modelled). -/
def parseInfoResponse (json : Bytes) : Res (Option Bytes × Option (List (Option Bytes))) :=
  match parse json with
  | none => .err .invalidParam
  | some root => .ok ((get root (c!"alias")).bind asStr, methodsOf root)

end Nostr.Nip47
