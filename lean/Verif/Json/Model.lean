import Verif.Num
import Verif.Hex.Model

/-!
# Model of the JSON library used by the code (cJSON)

cJSON is not part of /repo; it is the dependency behind every `cJSON_*` call.  The definitions below
follow the documented behaviour of cJSON 1.7 (`cJSON_Parse`, `cJSON_Print`, `cJSON_PrintUnformatted`,
`cJSON_GetObjectItem`).  They belong to the trusted base: a reader has to believe that cJSON acts like
this.  Numbers are kept as the text cJSON consumed (`strtod`), their numeric reading is done by
`Json.int64` below.
-/

namespace Nostr.Json
open Nostr

/-- A cJSON tree. Strings are NUL-free (C strings). -/
inductive Json
  | null
  | tru
  | fls
  | num (tok : Bytes)
  | str (s : Bytes)
  | arr (l : List Json)
  | obj (m : List (Bytes × Json))
  deriving Repr, Inhabited

mutual
/-- Equality test (the deriving handler does not cover nested types). -/
def decEq : (a b : Json) → Decidable (a = b)
  | .null, b => by cases b <;> first | exact isTrue rfl | exact isFalse (by simp)
  | .tru, b => by cases b <;> first | exact isTrue rfl | exact isFalse (by simp)
  | .fls, b => by cases b <;> first | exact isTrue rfl | exact isFalse (by simp)
  | .num t, .num u => decidable_of_iff (t = u) (by simp)
  | .num _, .null => isFalse (by simp)
  | .num _, .tru => isFalse (by simp)
  | .num _, .fls => isFalse (by simp)
  | .num _, .str _ => isFalse (by simp)
  | .num _, .arr _ => isFalse (by simp)
  | .num _, .obj _ => isFalse (by simp)
  | .str t, .str u => decidable_of_iff (t = u) (by simp)
  | .str _, .null => isFalse (by simp)
  | .str _, .tru => isFalse (by simp)
  | .str _, .fls => isFalse (by simp)
  | .str _, .num _ => isFalse (by simp)
  | .str _, .arr _ => isFalse (by simp)
  | .str _, .obj _ => isFalse (by simp)
  | .arr l, .arr k => @decidable_of_iff _ (l = k) (by simp) (decEqL l k)
  | .arr _, .null => isFalse (by simp)
  | .arr _, .tru => isFalse (by simp)
  | .arr _, .fls => isFalse (by simp)
  | .arr _, .num _ => isFalse (by simp)
  | .arr _, .str _ => isFalse (by simp)
  | .arr _, .obj _ => isFalse (by simp)
  | .obj l, .obj k => @decidable_of_iff _ (l = k) (by simp) (decEqM l k)
  | .obj _, .null => isFalse (by simp)
  | .obj _, .tru => isFalse (by simp)
  | .obj _, .fls => isFalse (by simp)
  | .obj _, .num _ => isFalse (by simp)
  | .obj _, .str _ => isFalse (by simp)
  | .obj _, .arr _ => isFalse (by simp)
/-- Equality test for element lists. -/
def decEqL : (a b : List Json) → Decidable (a = b)
  | [], [] => isTrue rfl
  | [], _ :: _ => isFalse (by simp)
  | _ :: _, [] => isFalse (by simp)
  | a :: l, b :: k => @decidable_of_iff _ (a = b ∧ l = k) (by simp)
      (@instDecidableAnd _ _ (decEq a b) (decEqL l k))
/-- Equality test for member lists. -/
def decEqM : (a b : List (Bytes × Json)) → Decidable (a = b)
  | [], [] => isTrue rfl
  | [], _ :: _ => isFalse (by simp)
  | _ :: _, [] => isFalse (by simp)
  | (s, a) :: l, (t, b) :: k => @decidable_of_iff _ (s = t ∧ a = b ∧ l = k) (by simp [and_assoc])
      (@instDecidableAnd _ _ inferInstance (@instDecidableAnd _ _ (decEq a b) (decEqM l k)))
end

instance : DecidableEq Json := decEq

/-- The C-string view of a decoded string: what lies before the first NUL. -/
def cstr (s : Bytes) : Bytes := s.takeWhile (· != 0)

/-- One character as printed inside a JSON string (cJSON `print_string_ptr`; also
event.c:228-280 `escape_json_string`, which produces the same text). -/
def escChar (c : UInt8) : Bytes :=
  if c = 0x22 then [0x5c, 0x22]
  else if c = 0x5c then [0x5c, 0x5c]
  else if c = 0x0a then [0x5c, 0x6e]
  else if c = 0x0d then [0x5c, 0x72]
  else if c = 0x09 then [0x5c, 0x74]
  else if c = 0x08 then [0x5c, 0x62]
  else if c = 0x0c then [0x5c, 0x66]
  else if c < 0x20 then
    [0x5c, 0x75, 0x30, 0x30, Hex.digit (c.toNat / 16), Hex.digit (c.toNat % 16)]
  else [c]

/-- Escaped string body. -/
def escape (s : Bytes) : Bytes := s.flatMap escChar

/-- A quoted string. -/
def quoted (s : Bytes) : Bytes := 0x22 :: escape s ++ [0x22]

/-- `n` tab characters. -/
def tabs (n : Nat) : Bytes := List.replicate n 0x09

mutual
/-- `cJSON_PrintUnformatted` (`fmt = false`) and `cJSON_Print` (`fmt = true`) at nesting `depth`. -/
def print (fmt : Bool) (depth : Nat) : Json → Bytes
  | .null => c!"null"
  | .tru => c!"true"
  | .fls => c!"false"
  | .num t => t
  | .str s => quoted s
  | .arr l => 0x5b :: printElems fmt depth l ++ [0x5d]
  | .obj m => 0x7b :: (if fmt then [0x0a] else []) ++ printMembers fmt (depth + 1) m ++
      (if fmt then tabs depth else []) ++ [0x7d]
/-- Array elements, separated by "," or ", ". -/
def printElems (fmt : Bool) (depth : Nat) : List Json → Bytes
  | [] => []
  | j :: l => print fmt (depth + 1) j ++
      match l with
      | [] => []
      | _ :: _ => 0x2c :: (if fmt then [0x20] else []) ++ printElems fmt depth l
/-- Object members; when formatting, each on its own line. -/
def printMembers (fmt : Bool) (depth : Nat) : List (Bytes × Json) → Bytes
  | [] => []
  | (k, j) :: m => (if fmt then tabs depth else []) ++ quoted k ++
      (0x3a :: (if fmt then [0x09] else [])) ++ print fmt depth j ++
      (match m with | [] => [] | _ :: _ => [0x2c]) ++ (if fmt then [0x0a] else []) ++
      printMembers fmt depth m
end

/-- `buffer_skip_whitespace`. -/
def skipWs (s : Bytes) : Bytes := s.dropWhile (fun c => decide (c ≤ 0x20))

/-- First pass of `parse_string`: the raw body up to the closing quote, and what follows it. -/
def strEnd : Bytes → Option (Bytes × Bytes)
  | [] => none
  | 0x22 :: rest => some ([], rest)
  | 0x5c :: c :: rest => (strEnd rest).map fun r => (0x5c :: c :: r.1, r.2)
  | 0x5c :: [] => none
  | c :: rest => (strEnd rest).map fun r => (c :: r.1, r.2)

/-- `parse_hex4`; 0 when a character is no hex digit. -/
def hex4 (a b c d : UInt8) : Nat :=
  match Hex.nibble a, Hex.nibble b, Hex.nibble c, Hex.nibble d with
  | some w, some x, some y, some z => ((w * 16 + x) * 16 + y) * 16 + z
  | _, _, _, _ => 0

/-- UTF-8 encoding of a code point, as in `utf16_literal_to_utf8`. -/
def utf8 (cp : Nat) : Bytes :=
  if cp < 0x80 then [UInt8.ofNat cp]
  else if cp < 0x800 then [UInt8.ofNat (0xc0 + cp / 64), UInt8.ofNat (0x80 + cp % 64)]
  else if cp < 0x10000 then
    [UInt8.ofNat (0xe0 + cp / 4096), UInt8.ofNat (0x80 + cp / 64 % 64), UInt8.ofNat (0x80 + cp % 64)]
  else
    [UInt8.ofNat (0xf0 + cp / 262144), UInt8.ofNat (0x80 + cp / 4096 % 64),
      UInt8.ofNat (0x80 + cp / 64 % 64), UInt8.ofNat (0x80 + cp % 64)]

/-- Second pass of `parse_string`: decode the escapes of the raw body. `fuel` is at least its length. -/
def unescape : Nat → Bytes → Option Bytes
  | _, [] => some []
  | 0, _ => none
  | f + 1, 0x5c :: rest =>
      match rest with
      | 0x62 :: r => (unescape f r).map (0x08 :: ·)
      | 0x66 :: r => (unescape f r).map (0x0c :: ·)
      | 0x6e :: r => (unescape f r).map (0x0a :: ·)
      | 0x72 :: r => (unescape f r).map (0x0d :: ·)
      | 0x74 :: r => (unescape f r).map (0x09 :: ·)
      | 0x22 :: r => (unescape f r).map (0x22 :: ·)
      | 0x5c :: r => (unescape f r).map (0x5c :: ·)
      | 0x2f :: r => (unescape f r).map (0x2f :: ·)
      | 0x75 :: a :: b :: c :: d :: r =>
          let u := hex4 a b c d
          if 0xdc00 ≤ u ∧ u ≤ 0xdfff then none
          else if 0xd800 ≤ u ∧ u ≤ 0xdbff then
            match r with
            | 0x5c :: 0x75 :: a' :: b' :: c' :: d' :: r' =>
                let v := hex4 a' b' c' d'
                if 0xdc00 ≤ v ∧ v ≤ 0xdfff then
                  (unescape f r').map (utf8 (0x10000 + (u - 0xd800) * 1024 + (v - 0xdc00)) ++ ·)
                else none
            | _ => none
          else (unescape f r).map (utf8 u ++ ·)
      | _ => none
  | f + 1, c :: rest => (unescape f rest).map (c :: ·)

/-- `parse_string` behind the opening quote: the string as the C code sees it, and the rest. -/
def parseStr (s : Bytes) : Option (Bytes × Bytes) :=
  match strEnd s with
  | none => none
  | some (raw, rest) => (unescape raw.length raw).map fun d => (cstr d, rest)

/-- Characters `parse_number` copies. -/
def isNumChar (c : UInt8) : Bool :=
  Num.isDigit c || c == 0x2b || c == 0x2d || c == 0x65 || c == 0x45 || c == 0x2e

/-- Longest prefix of digits. -/
def digits (s : Bytes) : Bytes := s.takeWhile Num.isDigit

/-- The prefix `strtod` consumes of a text made of number characters; empty when no conversion. -/
def strtodPrefix (s : Bytes) : Bytes :=
  let sign := if s.head? = some 0x2d ∨ s.head? = some 0x2b then s.take 1 else []
  let s1 := s.drop sign.length
  let ip := digits s1
  let s2 := s1.drop ip.length
  let fp := if s2.head? = some 0x2e then 0x2e :: digits s2.tail else []
  let mant := ip ++ fp
  if ip = [] ∧ fp.length ≤ 1 then []
  else
    let s3 := s2.drop fp.length
    let ep :=
      if s3.head? = some 0x65 ∨ s3.head? = some 0x45 then
        let t := s3.tail
        let esign := if t.head? = some 0x2d ∨ t.head? = some 0x2b then t.take 1 else []
        let ed := digits (t.drop esign.length)
        if ed = [] then [] else s3.take 1 ++ esign ++ ed
      else []
    sign ++ mant ++ ep

/-- `CJSON_NESTING_LIMIT`. -/
def nestingLimit : Nat := 1000

mutual
/-- `parse_value`: the tree and the unread text. `fuel` bounds the recursion; `depth` is the current
nesting. -/
def parseValue : Nat → Nat → Bytes → Option (Json × Bytes)
  | 0, _, _ => none
  | f + 1, depth, s =>
      if (c!"null").isPrefixOf s then some (.null, s.drop 4)
      else if (c!"false").isPrefixOf s then some (.fls, s.drop 5)
      else if (c!"true").isPrefixOf s then some (.tru, s.drop 4)
      else match s with
        | [] => none
        | c :: rest =>
          if c = 0x22 then (parseStr rest).map fun r => (.str r.1, r.2)
          else if c = 0x2d ∨ Num.isDigit c then
            let tok := strtodPrefix ((s.take 63).takeWhile isNumChar)
            if tok = [] then none else some (.num tok, s.drop tok.length)
          else if c = 0x5b then
            if depth ≥ nestingLimit then none
            else
              let s1 := skipWs rest
              match s1 with
              | [] => none
              | d :: r => if d = 0x5d then some (.arr [], r)
                  else (parseElems f (depth + 1) s1).map fun p => (.arr p.1, p.2)
          else if c = 0x7b then
            if depth ≥ nestingLimit then none
            else
              let s1 := skipWs rest
              match s1 with
              | [] => none
              | d :: r => if d = 0x7d then some (.obj [], r)
                  else (parseMembers f (depth + 1) s1).map fun p => (.obj p.1, p.2)
          else none
/-- The element loop of `parse_array`, positioned at an element. -/
def parseElems : Nat → Nat → Bytes → Option (List Json × Bytes)
  | 0, _, _ => none
  | f + 1, depth, s =>
      match parseValue f depth s with
      | none => none
      | some (j, s1) =>
          match skipWs s1 with
          | [] => none
          | c :: r =>
              if c = 0x2c then (parseElems f depth (skipWs r)).map fun p => (j :: p.1, p.2)
              else if c = 0x5d then some ([j], r)
              else none
/-- The member loop of `parse_object`, positioned at a key. -/
def parseMembers : Nat → Nat → Bytes → Option (List (Bytes × Json) × Bytes)
  | 0, _, _ => none
  | f + 1, depth, s =>
      match s with
      | [] => none
      | q :: s0 =>
        if q ≠ 0x22 then none
        else match parseStr s0 with
        | none => none
        | some (k, s1) =>
          match skipWs s1 with
          | [] => none
          | col :: s2 =>
            if col ≠ 0x3a then none
            else match parseValue f depth (skipWs s2) with
            | none => none
            | some (j, s3) =>
              match skipWs s3 with
              | [] => none
              | c :: r =>
                  if c = 0x2c then (parseMembers f depth (skipWs r)).map fun p => ((k, j) :: p.1, p.2)
                  else if c = 0x7d then some ([(k, j)], r)
                  else none
end

/-- `cJSON_Parse`: text after the value is ignored. A byte-order mark is not modelled. -/
def parse (s : Bytes) : Option Json :=
  (parseValue (2 * s.length + 2) 0 (skipWs s)).map (·.1)

/-- ASCII `tolower`. -/
def lowerC (c : UInt8) : UInt8 := if 0x41 ≤ c ∧ c ≤ 0x5a then c + 0x20 else c

/-- `cJSON_GetObjectItem`: first member whose name matches case-insensitively. -/
def get (j : Json) (key : Bytes) : Option Json :=
  match j with
  | .obj m => (m.find? fun p => p.1.map lowerC == key.map lowerC).map (·.2)
  | _ => none

/-- `cJSON_IsString` and `valuestring`. -/
def asStr : Json → Option Bytes
  | .str s => some s
  | _ => none

/-- `cJSON_IsNumber`. -/
def asNum : Json → Option Bytes
  | .num t => some t
  | _ => none

/-- `cJSON_IsArray` and the children. -/
def asArr : Json → Option (List Json)
  | .arr l => some l
  | _ => none

/-- A number text that a double holds exactly and that is written plainly: optional minus sign and at
most 15 digits. -/
def plainInt (tok : Bytes) : Option Int :=
  let neg := tok.head? == some 0x2d
  let ds := if neg then tok.tail else tok
  if ds ≠ [] ∧ ds.length ≤ 15 ∧ ds.all Num.isDigit then
    some (if neg then -(Num.natOf ds : Int) else Num.natOf ds)
  else none

/-- `(int64_t) valuedouble`: exact on plain integers; any other number text is read by `real`, an
uninterpreted parameter (fractions, exponents, more than 15 digits). -/
def int64 (real : Bytes → Int) (tok : Bytes) : Int := (plainInt tok).getD (real tok)

/-- `valueint`: `valuedouble` saturated to `int`. -/
def valueint (real : Bytes → Int) (tok : Bytes) : Int :=
  let v := int64 real tok
  if v ≥ 2 ^ 31 - 1 then 2 ^ 31 - 1 else if v ≤ -2 ^ 31 then -2 ^ 31 else v

/-- `cJSON_CreateNumber` applied to an integer and printed: plain decimal digits up to 15 digits; other
values are printed by `fmtReal`, an uninterpreted parameter, after conversion to `double`
(`toDouble`). -/
def numTok (toDouble : Int → Int) (fmtReal : Int → Bytes) (n : Int) : Bytes :=
  if n.natAbs < 10 ^ 15 then Num.decInt n else fmtReal (toDouble n)

end Nostr.Json
