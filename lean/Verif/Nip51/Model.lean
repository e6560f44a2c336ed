import Verif.Event.Model
import Verif.Nip44.Model
import Verif.Text

/-!
# Model of lists (src/nip51.c)

A list owns an array of slots; the first `count` of them hold items.  Allocation outcomes are arguments.
-/

namespace Nostr.Nip51
open Nostr Nostr.Event

/-- include/nostr.h:1512-1518 `nostr_list_item`. -/
structure Item where
  type : Bytes
  value : Bytes
  hint : Option Bytes
  pet : Option Bytes
  priv : Bool
  deriving DecidableEq, Repr

/-- include/nostr.h:1520-1529 `nostr_list`; `item_capacity` is the number of slots, `none` is a zeroed slot. -/
structure Lst where
  kind : Nat
  d : Option Bytes
  title : Option Bytes
  descr : Option Bytes
  image : Option Bytes
  slots : List (Option Item)
  count : Nat
  deriving DecidableEq, Repr

/-- nip51.c:123-146 `nostr_list_create` (successful allocation). -/
def create (kind : Nat) : Lst := ⟨kind, none, none, none, none, List.replicate 8 none, 0⟩

/-- nip51.c:165-176 `set_string_field`: new value of the field and return value; the old text is freed first, `dup` says
whether copying the new one succeeds. -/
def setText (dup : Bool) (o : Option Bytes) : Option Bytes × Option Err :=
  if o ≠ none ∧ dup = false then (none, some .memory) else (o, none)

/-- nip51.c:202-229 `ensure_capacity`; `mem` says whether `realloc` succeeds. -/
def ensure (mem : Bool) (l : Lst) : Res Lst :=
  if l.count ≥ l.slots.length then
    if min (l.slots.length * 2) 4096 ≤ l.count then .err .memory
    else if mem = false then .err .memory
    else .ok { l with slots := l.slots ++ List.replicate (min (l.slots.length * 2) 4096 - l.slots.length) none }
  else .ok l

/-- nip51.c:231-260 `add_item`: new list and return value. `mem` is for `ensure_capacity`, `dup` says whether all
copies of texts succeed. A write outside the slots is undefined. -/
def addItem (mem dup : Bool) (l : Lst) (it : Item) : Res (Lst × Option Err) :=
  match ensure mem l with
  | .err e => .ok (l, some e)
  | .ub => .ub
  | .ok l1 =>
      if l1.count ≥ l1.slots.length then .ub
      else if dup = false then .ok ({ l1 with slots := l1.slots.set l1.count none }, some .memory)
      else .ok ({ l1 with slots := l1.slots.set l1.count (some it), count := l1.count + 1 }, none)

/-- nip51.c:72-83 `is_valid_hex64`. -/
def hex64 (s : Bytes) : Bool := s.length = 64 && s.all fun c => (Hex.nibble c).isSome

/-- Arguments of the functions that add an item. -/
inductive Add where
  | pubkey (key : Bytes) (hint pet : Option Bytes)
  | event (id : Bytes) (hint : Option Bytes)
  | hashtag (tag : Bytes)
  | word (word : Bytes)
  | relay (url : Bytes)
  | reference (ref : Bytes) (hint : Option Bytes)
  | group (id url : Bytes) (name : Option Bytes)
  | emoji (code url : Bytes)
  deriving DecidableEq, Repr

/-- nip51.c:262-329 `nostr_list_add_pubkey` … `nostr_list_add_emoji`: the checks, and the item that is added. -/
def item (a : Add) (priv : Bool) : Option Item :=
  match a with
  | .pubkey k h p => if hex64 k then some ⟨c!"p", k, h, p, priv⟩ else none
  | .event i h => if hex64 i then some ⟨c!"e", i, h, none, priv⟩ else none
  | .hashtag t => if t = [] then none else some ⟨c!"t", t, none, none, priv⟩
  | .word t => if t = [] then none else some ⟨c!"word", t, none, none, priv⟩
  | .relay t => if t = [] then none else some ⟨c!"relay", t, none, none, priv⟩
  | .reference t h => if t = [] then none else some ⟨c!"a", t, h, none, priv⟩
  | .group t u n => if t = [] ∨ u = [] then none else some ⟨c!"group", t, some u, n, priv⟩
  | .emoji t u => if t = [] ∨ u = [] then none else some ⟨c!"emoji", t, some u, none, priv⟩

/-- nip51.c:262-329: one of the adding functions. -/
def add (mem dup : Bool) (l : Lst) (a : Add) (priv : Bool) : Res (Lst × Option Err) :=
  match item a priv with
  | none => .ok (l, some .invalidParam)
  | some it => addItem mem dup l it

/-- nip51.c:339-345 `nostr_list_get`. -/
def get (l : Lst) (i : Nat) : Res (Option Item) :=
  if i ≥ l.count then .ok none
  else match l.slots[i]? with
    | none => .ub
    | some none => .ub
    | some (some it) => .ok (some it)

/-- nip51.c:347-364 `nostr_list_remove`: `memmove` of the items behind it, then the last one is zeroed. -/
def remove (l : Lst) (i : Nat) : Res (Lst × Option Err) :=
  if i ≥ l.count then .ok (l, some .invalidParam)
  else if l.count > l.slots.length then .ub
  else
    let moved := l.slots.take i ++ (l.slots.drop (i + 1)).take (l.count - i - 1) ++ l.slots.drop (l.count - 1)
    .ok ({ l with slots := moved.set (l.count - 1) none, count := l.count - 1 }, none)

/-- The items of a list, in order. -/
def Lst.items (l : Lst) : List Item := (l.slots.take l.count).filterMap id

/-! ## Private items -/

/-- nip51.c:14-29 `json_escaped_len`, one character. -/
def escLen1 (c : UInt8) : Nat :=
  if c = 0x22 ∨ c = 0x5c ∨ c = 0x0a ∨ c = 0x0d ∨ c = 0x09 then 2 else if c < 0x20 then 6 else 1

/-- nip51.c:14-29 `json_escaped_len`. -/
def escLen : Bytes → Nat
  | [] => 0
  | c :: s => escLen1 c + escLen s

/-- nip51.c:31-57 `json_escape_to`, one character. -/
def escChar51 (c : UInt8) : Bytes :=
  if c = 0x22 then [0x5c, 0x22]
  else if c = 0x5c then [0x5c, 0x5c]
  else if c = 0x0a then [0x5c, 0x6e]
  else if c = 0x0d then [0x5c, 0x72]
  else if c = 0x09 then [0x5c, 0x74]
  else if c < 0x20 then [0x5c, 0x75, 0x30, 0x30, Hex.digit (c.toNat / 16), Hex.digit (c.toNat % 16)]
  else [c]

/-- A buffer and what has been written into it. -/
structure Buf where
  size : Nat
  text : Bytes
  deriving DecidableEq, Repr

/-- `*pos++ = c`. -/
def Buf.put (b : Buf) (c : UInt8) : Res Buf :=
  if b.text.length < b.size then .ok { b with text := b.text ++ [c] } else .ub

/-- Several characters, one after the other. -/
def Buf.puts (b : Buf) : Bytes → Res Buf
  | [] => .ok b
  | c :: s => b.put c >>= fun b1 => b1.puts s

/-- nip51.c:56: the terminating zero, which is overwritten by what follows. -/
def Buf.zero (b : Buf) : Res Buf := if b.text.length < b.size then .ok b else .ub

/-- nip51.c:31-57: the characters of `json_escape_to`. -/
def Buf.escs (b : Buf) : Bytes → Res Buf
  | [] => .ok b
  | c :: s => b.puts (escChar51 c) >>= fun b1 => b1.escs s

/-- nip51.c:31-57 `json_escape_to(pos, s); pos += strlen(pos)`. -/
def Buf.escape (b : Buf) (s : Bytes) : Res Buf := b.escs s >>= Buf.zero

/-- nip51.c:387-399: bytes reserved for an item. -/
def itemSize (it : Item) : Nat :=
  escLen it.type + escLen it.value + 16 + (match it.hint with | none => 0 | some h => escLen h + 4) +
    (match it.pet with | none => 0 | some p => escLen p + 4 + (if it.hint = none then 3 else 0))

/-- nip51.c:384-405: the buffer size. -/
def bufSize : List Item → Nat
  | [] => 2
  | it :: l => (if it.priv then itemSize it else 0) + bufSize l

/-- nip51.c:437-443: a relay hint. -/
def putHint (b : Buf) : Option Bytes → Res Buf
  | none => .ok b
  | some h => b.puts [0x2c, 0x22] >>= fun b1 => b1.escape h >>= fun b2 => b2.put 0x22

/-- nip51.c:444-456: a petname, behind an empty hint if there is none. -/
def putPet (b : Buf) (hint : Option Bytes) : Option Bytes → Res Buf
  | none => .ok b
  | some p => b.puts (if hint = none then [0x2c, 0x22, 0x22] else []) >>= fun b1 => b1.puts [0x2c, 0x22] >>= fun b2 =>
      b2.escape p >>= fun b3 => b3.put 0x22

/-- nip51.c:421-457: one private item. -/
def putItem (b : Buf) (first : Bool) (it : Item) : Res Buf :=
  b.puts (if first then [] else [0x2c]) >>= fun b1 => b1.puts [0x5b, 0x22] >>= fun b2 => b2.escape it.type >>= fun b3 =>
  b3.puts [0x22, 0x2c, 0x22] >>= fun b4 => b4.escape it.value >>= fun b5 => b5.put 0x22 >>= fun b6 =>
  putHint b6 it.hint >>= fun b7 => putPet b7 it.hint it.pet >>= fun b8 => b8.put 0x5d

/-- nip51.c:415-458: the loop over the items. -/
def putItems (b : Buf) (first : Bool) : List Item → Res Buf
  | [] => .ok b
  | it :: l => if it.priv then putItem b first it >>= fun b1 => putItems b1 false l else putItems b first l

/-- nip51.c:377-462 `build_private_content` (sizes do not overflow, `malloc` succeeds). -/
def privateText (l : List Item) : Res Bytes :=
  if l.any (·.priv) = false then .ok []
  else (Buf.mk (bufSize l) []).put 0x5b >>= fun b1 => putItems b1 true l >>= fun b2 => b2.put 0x5d >>= fun b3 =>
    b3.zero >>= fun b4 => .ok b4.text

/-- nip51.c:85-96 `skip_json_whitespace`: blanks and commas. -/
def skipWs : Bytes → Bytes
  | [] => []
  | c :: s => if c = 0x20 ∨ c = 0x0a ∨ c = 0x0d ∨ c = 0x09 ∨ c = 0x2c then skipWs s else c :: s

/-- nip51.c:98-110 `parse_hex4`: value and remaining text. -/
def hex4 : Bytes → Option (Nat × Bytes)
  | a :: b :: c :: d :: r =>
      match Hex.nibble a, Hex.nibble b, Hex.nibble c, Hex.nibble d with
      | some w, some x, some y, some z => some (((w * 16 + x) * 16 + y) * 16 + z, r)
      | _, _, _, _ => none
  | _ => none

/-- nip51.c:572-608 `encode_utf8`: the bytes of a code point; 0x3f stands for invalid ones. -/
def utf8 (cp : Nat) : Bytes :=
  if cp ≤ 0x7f then [UInt8.ofNat cp]
  else if cp ≤ 0x7ff then [UInt8.ofNat (0xc0 + cp / 64), UInt8.ofNat (0x80 + cp % 64)]
  else if cp ≤ 0xffff then [UInt8.ofNat (0xe0 + cp / 4096), UInt8.ofNat (0x80 + cp / 64 % 64), UInt8.ofNat (0x80 + cp % 64)]
  else if cp ≤ 0x10ffff then [UInt8.ofNat (0xf0 + cp / 262144), UInt8.ofNat (0x80 + cp / 4096 % 64),
    UInt8.ofNat (0x80 + cp / 64 % 64), UInt8.ofNat (0x80 + cp % 64)]
  else [0x3f]

/-- nip51.c:685-713: a `\u` escape, `p` behind the `u`: the bytes it stands for and the remaining text. -/
def uEscape (p : Bytes) : Bytes × Bytes :=
  match hex4 p with
  | none => ([0x3f], p)
  | some (hi, r) =>
      if 0xd800 ≤ hi ∧ hi ≤ 0xdbff then
        match r with
        | a :: b :: r1 =>
            if a = 0x5c ∧ b = 0x75 then
              match hex4 r1 with
              | none => ([0x3f], r1)
              | some (lo, r2) =>
                  if 0xdc00 ≤ lo ∧ lo ≤ 0xdfff then (utf8 (0x10000 + (hi - 0xd800) * 1024 + (lo - 0xdc00)), r2)
                  else ([0x3f], r2)
            else ([0x3f], r)
        | _ => ([0x3f], r)
      else if 0xdc00 ≤ hi ∧ hi ≤ 0xdfff then ([0x3f], r)
      else (utf8 hi, r)

/-- nip51.c:679-717: a simple escape. -/
def simpleEsc (c : UInt8) : UInt8 := if c = 0x6e then 0x0a else if c = 0x72 then 0x0d else if c = 0x74 then 0x09 else c

/-- nip51.c:666-727: the characters of a field up to the closing quote or the end; at most `max` bytes, more make the
whole text invalid (the code skips the rest of the field before it says so). `fuel` bounds the number of steps. -/
def field (max : Nat) : Nat → Bytes → Bytes → Option (Bytes × Bytes)
  | 0, _, _ => none
  | _ + 1, acc, [] => some (acc, [])
  | fuel + 1, acc, c :: r =>
      if c = 0x22 then some (acc, c :: r)
      else if acc.length ≥ max then none
      else if c = 0x5c then
        match r with
        | [] => field max fuel (acc ++ [c]) []
        | e :: r1 =>
            if e = 0x75 then
              if acc.length + (uEscape r1).1.length ≤ max then field max fuel (acc ++ (uEscape r1).1) (uEscape r1).2 else none
            else field max fuel (acc ++ [simpleEsc e]) r1
      else field max fuel (acc ++ [c]) r

/-- nip51.c:654-658: room of the fields. -/
def room (k : Nat) : Nat := if k = 0 then 63 else if k = 1 then 1023 else if k = 2 then 511 else 255

/-- nip51.c:660-661: the text behind a field that is ignored. -/
def skipField : Bytes → Bytes
  | [] => []
  | c :: s => if c = 0x22 then s else skipField s

/-- nip51.c:635-733: the fields of one item, `k` of them already read. -/
def fields : Nat → Nat → List Bytes → Bytes → Option (List Bytes × Bytes)
  | 0, _, _, _ => none
  | fuel + 1, k, acc, p =>
      if p = [] ∨ p.head? = some 0x5d then some (acc, p)
      else match skipWs p with
        | [] => none
        | c :: r =>
            if c = 0x5d then some (acc, c :: r)
            else if c ≠ 0x22 then none
            else if k ≥ 4 then fields fuel (k + 1) acc (skipField r)
            else match field (room k) (r.length + 1) [] r with
              | none => none
              | some (t, r1) => fields fuel (k + 1) (acc ++ [t]) (if r1.head? = some 0x22 then r1.drop 1 else r1)

/-- The C string at the beginning of a zeroed array. -/
def cs (l : List Bytes) (k : Nat) : Bytes := (l.getD k []).takeWhile (· ≠ 0)

/-- `x[0] ? x : NULL`. -/
def opt (t : Bytes) : Option Bytes := if t = [] then none else some t

/-- nip51.c:739-746: the item from its fields, if type and value are not empty. -/
def fromFields (l : List Bytes) : Option Item :=
  if cs l 0 = [] ∨ cs l 1 = [] then none else some ⟨cs l 0, cs l 1, opt (cs l 2), opt (cs l 3), true⟩

/-- nip51.c:625-747: the items. Memory allocation succeeds. -/
def parseItems : Nat → Lst → Bytes → Res Lst
  | 0, _, _ => .err .jsonParse
  | fuel + 1, l, p =>
      if p = [] then .ok l
      else match skipWs p with
        | [] => .err .jsonParse
        | c :: r =>
            if c = 0x5d then .ok l
            else if c ≠ 0x5b then .err .jsonParse
            else match fields (r.length + 1) 0 [] r with
              | none => .err .jsonParse
              | some (fs, r1) =>
                  match fromFields fs with
                  | none => parseItems fuel l (if r1.head? = some 0x5d then r1.drop 1 else r1)
                  | some it => addItem true true l it >>= fun q =>
                      match q.2 with
                      | some e => .err e
                      | none => parseItems fuel q.1 (if r1.head? = some 0x5d then r1.drop 1 else r1)

/-- nip51.c:610-750 `parse_private_content`. -/
def parsePrivate (l : Lst) (json : Bytes) : Res Lst :=
  if json.length < 2 then .ok l
  else match json.dropWhile (· ≠ 0x5b) with
    | [] => .err .jsonParse
    | _ :: r => parseItems (r.length + 1) l r

/-! ## Events -/

/-- Secret key (if the pair has one) and public key. -/
structure Keys where
  sk : Bytes
  pk : Bytes
  deriving DecidableEq, Repr

/-- nip51.c:59-62 `is_parameterized_list`. -/
def parameterized (kind : Nat) : Bool := decide (30000 ≤ kind ∧ kind < 40000)

/-- nip51.c:484-506: the tags in front. -/
def headTags (l : Lst) : List (List Bytes) :=
  if parameterized l.kind then
    [[c!"d", l.d.getD []]] ++ (l.title.map fun t => [c!"title", t]).toList ++
      (l.descr.map fun t => [c!"description", t]).toList ++ (l.image.map fun t => [c!"image", t]).toList
  else []

/-- nip51.c:512-521: the tag of a public item. -/
def itemTag (it : Item) : List Bytes :=
  [it.type, it.value] ++ (match it.pet with
    | none => it.hint.toList
    | some p => [it.hint.getD [], p])

/-- Tags added one after the other. -/
def addAll (cfg : Option Config.Config) : Event → List (List Bytes) → Res Event
  | e, [] => .ok e
  | e, t :: ts => addTag cfg e t >>= fun e1 => addAll cfg e1 ts

/-- nip51.c:464-570 `nostr_list_to_event`; `keys = none` is no key pair, `nonce` the random bytes of the encryption. -/
def toEvent (N : Nip44.Nc) (B : Nip44.B64) (cfg : Option Config.Config) (now : Int) (nonce : Option Bytes) (keys : Option Keys)
    (l : Lst) : Res Event :=
  if l.items.any (·.priv) = true ∧ keys = none then .err .invalidParam
  else addAll cfg { zero with kind := l.kind, createdAt := now }
      (headTags l ++ (l.items.filter fun it => !it.priv).map itemTag) >>= fun e =>
    match keys with
    | some k =>
        if l.items.any (·.priv) then
          privateText l.items >>= fun t => Nip44.encrypt N B cfg nonce k.sk k.pk t >>= fun ct => .ok { e with content := some ct }
        else .ok { e with content := some [] }
    | none => .ok { e with content := some [] }

/-- nip51.c:764-807: one tag. -/
def readTag (l : Lst) (t : List Bytes) : Res Lst :=
  match t with
  | n :: v :: r =>
      if n = c!"d" then .ok { l with d := some v }
      else if n = c!"title" then .ok { l with title := some v }
      else if n = c!"description" then .ok { l with descr := some v }
      else if n = c!"image" then .ok { l with image := some v }
      else addItem true true l ⟨n, v, r.head?, (r.drop 1).head?, false⟩ >>= fun q =>
        match q.2 with
        | some e => .err e
        | none => .ok q.1
  | _ => .ok l

/-- nip51.c:764-807: the tags. -/
def readTags : Lst → List (List Bytes) → Res Lst
  | l, [] => .ok l
  | l, t :: ts => readTag l t >>= fun l1 => readTags l1 ts

/-- nip51.c:752-836 `nostr_list_from_event`; the decrypted text is used as a C string. -/
def fromEvent (N : Nip44.Nc) (B : Nip44.B64) (cfg : Option Config.Config) (keys : Option Keys) (e : Event) : Res Lst :=
  readTags (create e.kind) e.tags >>= fun l =>
    match keys with
    | none => .ok l
    | some k => if e.text = [] then .ok l
        else Nip44.decrypt N B cfg k.sk k.pk e.text >>= fun t => parsePrivate l (t.takeWhile (· ≠ 0))

end Nostr.Nip51
