import Verif.Basic
import Verif.Hex.Model

/-!
# NIP-05 identifiers (src/nip05.c)

Allocation succeeds.  Arguments are non-NULL except where an option says otherwise.  `size_t` sums in this file stay
below 2^64 (texts fit in memory).
-/

namespace Nostr.Nip05
open Nostr

/-- C `tolower` in the "C" locale. -/
def tolower (c : UInt8) : UInt8 := if 0x41 ≤ c ∧ c ≤ 0x5a then c + 32 else c

/-- nip05.c:16-20 `str_tolower`. -/
def lower (s : Bytes) : Bytes := s.map tolower

/-- nip05.c:22-24 `is_hex_char`. -/
def isHexChar (c : UInt8) : Bool :=
  (decide (0x30 ≤ c) && decide (c ≤ 0x39)) || (decide (0x61 ≤ c) && decide (c ≤ 0x66)) ||
    (decide (0x41 ≤ c) && decide (c ≤ 0x46))

/-- The letters and digits in the tests of nip05.c:30-31 and 46-47. -/
def isAlnum (c : UInt8) : Bool :=
  (decide (0x61 ≤ c) && decide (c ≤ 0x7a)) || (decide (0x41 ≤ c) && decide (c ≤ 0x5a)) ||
    (decide (0x30 ≤ c) && decide (c ≤ 0x39))

/-- nip05.c:26-36 `is_valid_local_part`. -/
def validLocal (s : Bytes) : Bool :=
  if s.length = 0 ∨ s.length > 64 then false
  else s.all fun c => isAlnum c || c == 0x2d || c == 0x5f || c == 0x2e

/-- nip05.c:41-51: the loop of `is_valid_domain`; `prev` is the character before, `dot` is `has_dot`. -/
def domainLoop : Option UInt8 → Bool → Bytes → Bool
  | _, dot, [] => dot
  | prev, dot, c :: s =>
      if c = 0x2e then if prev = some 0x2e then false else domainLoop (some c) true s
      else if isAlnum c || c == 0x2d then domainLoop (some c) dot s
      else false

/-- nip05.c:38-53 `is_valid_domain`. -/
def validDomain (s : Bytes) : Bool :=
  if s.length = 0 ∨ s.length > 256 then false
  else if s.head? = some 0x2e ∨ s.getLast? = some 0x2e then false
  else domainLoop none false s

/-- nip05.c:102-127 `nostr_nip05_parse`: local part and domain. -/
def parse (identifier : Bytes) (nameSize domainSize : Nat) : Res (Bytes × Bytes) :=
  if nameSize < 2 ∨ domainSize < 4 then .err .invalidParam
  else match identifier.dropWhile (· != 0x40) with
    | [] => .err .invalidParam
    | _ :: domain =>
        if !validLocal (identifier.takeWhile (· != 0x40)) then .err .invalidParam
        else if !validDomain domain then .err .invalidParam
        else if (identifier.takeWhile (· != 0x40)).length ≥ nameSize ∨ domain.length ≥ domainSize then .err .invalidParam
        else .ok (lower (identifier.takeWhile (· != 0x40)), lower domain)

/-- nip05.c:138-165 `nostr_nip05_build_url`; writing more than `urlSize` bytes would be undefined behaviour. -/
def buildUrl (name domain : Bytes) (urlSize : Nat) : Res Bytes :=
  if name.length > 64 ∨ domain.length > 256 then .err .invalidParam
  else if urlSize < 38 + name.length + domain.length then .err .invalidParam
  else if (c!"https://" ++ domain ++ c!"/.well-known/nostr.json?name=" ++ name).length + 1 > urlSize then .ub
  else .ok (c!"https://" ++ domain ++ c!"/.well-known/nostr.json?name=" ++ name)

/-- nip05.c:55-59 `skip_ws_and_colon`. -/
def skipColon (s : Bytes) : Bytes :=
  s.dropWhile fun c => c == 0x20 || c == 0x3a || c == 0x0a || c == 0x09 || c == 0x0d

/-- nip05.c:61-71 `is_escaped_quote`; the argument is what lies before the quote, nearest character first. -/
def escaped (before : Bytes) : Bool := (before.takeWhile (· == 0x5c)).length % 2 == 1

/-- nip05.c:79-86: the loop of `json_strstr`; the text from the first match on. -/
def strstrLoop (needle : Bytes) : Bytes → Bool → Bytes → Option Bytes
  | _, _, [] => none
  | before, inStr, c :: s =>
      if inStr = false ∧ (c :: s).take needle.length = needle then some (c :: s)
      else strstrLoop needle (c :: before) (if c = 0x22 ∧ escaped before = false then !inStr else inStr) s

/-- nip05.c:73-88 `json_strstr`. -/
def strstr (json needle : Bytes) : Option Bytes := strstrLoop needle [] false json

/-- nip05.c:90-95 `contains_unicode_escape`. -/
def hasU : Bytes → Bool
  | a :: b :: s => (a == 0x5c && b == 0x75) || hasU (b :: s)
  | _ => false

/-- nip05.c:97-100 `is_valid_relay_url`. -/
def validRelay (url : Bytes) : Bool :=
  if url.length < 6 ∨ hasU url then false
  else url.take 6 == c!"wss://" || url.take 5 == c!"ws://"

/-- nip05.c:222-231: the number of strings before the first `]`. -/
def countLoop : Bytes → Bool → Bytes → Nat
  | _, _, [] => 0
  | before, inStr, c :: s =>
      if c = 0x5d then 0
      else if c = 0x22 ∧ escaped before = false then
        (if inStr then 1 else 0) + countLoop (c :: before) (!inStr) s
      else countLoop (c :: before) inStr s

/-- nip05.c:239-264: the nested loops as one automaton.  The first argument is `count - idx`; the third is `none`
outside a string and the characters since `relay_start` inside one. -/
def collect : Nat → Bytes → Option Bytes → Bytes → List Bytes
  | _, _, _, [] => []
  | 0, _, none, _ :: _ => []
  | n, before, none, c :: s =>
      if c = 0x5d then []
      else if c = 0x22 then collect n (c :: before) (some []) s
      else collect n (c :: before) none s
  | n, before, some url, c :: s =>
      if c = 0x22 ∧ escaped before = false then
        if validRelay url then url :: collect (n - 1) (c :: before) none s
        else collect n (c :: before) none s
      else collect n (c :: before) (some (url ++ [c])) s

/-- nip05.c:206-269: the relays listed for a key; allocation succeeds. -/
def relaysOf (json key : Bytes) : Res (List Bytes) :=
  match strstr json (c!"\"relays\"") with
  | none => .ok []
  | some p => match skipColon (p.drop 8) with
      | 0x7b :: q =>
          match strstr (0x7b :: q) (0x22 :: key ++ [0x22]) with
          | none => .ok []
          | some r => match skipColon (r.drop (key.length + 2)) with
              | 0x5b :: list =>
                  if countLoop [] false list = 0 then .ok []
                  else if countLoop [] false list > 100 then .err .invalidParam
                  else .ok (collect (countLoop [] false list) [] none list)
              | _ => .ok []
      | _ => .ok []

/-- nip05.c:167-203: the key the document gives for a name. -/
def keyOf (json name : Bytes) : Res Bytes :=
  if json.length > 1048576 then .err .invalidParam
  else if name.length = 0 ∨ name.length > 64 then .err .invalidParam
  else if name.any (fun c => c == 0x22 || c == 0x5c) then .err .invalidParam
  else match strstr json (c!"\"names\"") with
    | none => .err .notFound
    | some p => match skipColon (p.drop 7) with
        | 0x7b :: q =>
            match strstr (0x7b :: q) (0x22 :: name ++ [0x22]) with
            | none => .err .notFound
            | some r => match skipColon (r.drop (name.length + 2)) with
                | 0x22 :: v =>
                    if (v.takeWhile (· != 0x22)).length ≠ 64 ∨ v.dropWhile (· != 0x22) = [] then .err .invalidKey
                    else if !(v.take 64).all isHexChar then .err .invalidKey
                    else .ok (lower (v.take 64))
                | _ => .err .jsonParse
        | _ => .err .jsonParse

/-- nip05.c:167-271 `nostr_nip05_parse_response` with a key buffer of at least 65 bytes; `want` says that both relay
arguments are given. -/
def parseResponse (json name : Bytes) (want : Bool) : Res (Bytes × List Bytes) :=
  keyOf json name >>= fun key =>
  if want then relaysOf json key >>= fun rs => .ok (key, rs)
  else .ok (key, [])

/-- nip05.c:285-348 `nostr_nip05_verify`.  `http` is the callback: an error, no response, or a NUL-terminated
response with the length it reports. -/
def verify (http : Bytes → Res (Option (Bytes × Nat))) (identifier expected : Bytes) (want : Bool) : Res (List Bytes) :=
  parse identifier 65 257 >>= fun nd =>
  buildUrl nd.1 nd.2 512 >>= fun url =>
  http url >>= fun r =>
  match r with
  | none => .err .notFound
  | some (response, len) =>
      if len = 0 then .err .notFound
      else if len > 1048576 then .err .invalidParam
      else
        parseResponse response nd.1 want >>= fun kr =>
        if expected.length ≠ 64 then .err .invalidKey
        else if Hex.ctMemcmp kr.1 (lower expected) ≠ 0 then .err .invalidKey
        else .ok kr.2

end Nostr.Nip05
