import Verif.Event.Model

/-!
# Model of the memory behind an event's tags (src/event.c, src/nip13.c)

`Verif/Event/Model.lean` keeps the tags of an event as a list of lists of texts.  The code keeps them in
one growing block of memory (the *arena*), addressed by absolute pointers which have to be rewritten
whenever `realloc` moves the block.  This file models that memory byte by byte; `Props.lean` proves that the
lists are what a reader of the memory sees.

Addresses are natural numbers, a pointer has eight bytes (64-bit platform), `size_t` has 64 bits with
wrap-around, and `NULL` is 0.  Alignment is not modelled in the operations (an unaligned access is carried
out, as on x86-64 and on ARMv8); see `C18_alignment_refuted` for what the code does about it.
-/

namespace Nostr.Arena
open Nostr

/-- The content of one allocated byte: never written, a byte of data, or byte `k` of a stored pointer `p`. -/
inductive Cell
  | undef
  | byte (b : UInt8)
  | frag (p k : Nat)
  deriving DecidableEq, Repr

/-- The memory; `none` at addresses which are not allocated. -/
abbrev Mem := Nat → Option Cell

/-- `SIZE_MAX` -/
def sizeMax : Nat := 2 ^ 64 - 1

/-- Reading a pointer stored at `a`; anything but a complete pointer is undefined. -/
def readPtr (m : Mem) (a : Nat) : Res Nat :=
  match m a with
  | some (.frag p 0) =>
      if m (a + 1) = some (.frag p 1) ∧ m (a + 2) = some (.frag p 2) ∧ m (a + 3) = some (.frag p 3) ∧
          m (a + 4) = some (.frag p 4) ∧ m (a + 5) = some (.frag p 5) ∧ m (a + 6) = some (.frag p 6) ∧
          m (a + 7) = some (.frag p 7) then .ok p
      else .ub
  | _ => .ub

/-- Whether `n` bytes from `a` on are allocated. -/
def mapped (m : Mem) : Nat → Nat → Bool
  | _, 0 => true
  | a, n + 1 => (m a).isSome && mapped m (a + 1) n

/-- Storing the pointer `p` at `a`. -/
def writePtr (m : Mem) (a p : Nat) : Res Mem :=
  if mapped m a 8 then .ok fun x => if a ≤ x ∧ x < a + 8 then some (.frag p (x - a)) else m x
  else .ub

/-- C library `strlen`; the first argument bounds the search by the size of the address space. -/
def strlen (m : Mem) : Nat → Nat → Res Nat
  | 0, _ => .ub
  | f + 1, a =>
      match m a with
      | some (.byte b) => if b = 0 then .ok 0 else strlen m f (a + 1) >>= fun n => .ok (n + 1)
      | _ => .ub

/-- The C string at `p`, as a reader of the event sees it. -/
def readStr (m : Mem) : Nat → Nat → Res Bytes
  | 0, _ => .ub
  | f + 1, a =>
      match m a with
      | some (.byte b) => if b = 0 then .ok [] else readStr m f (a + 1) >>= fun s => .ok (b :: s)
      | _ => .ub

/-- C library `memcpy`: both ranges allocated and disjoint. -/
def memcpy (m : Mem) (dst src n : Nat) : Res Mem :=
  if mapped m dst n && mapped m src n && (decide (dst + n ≤ src) || decide (src + n ≤ dst)) then
    .ok fun x => if dst ≤ x ∧ x < dst + n then m (src + (x - dst)) else m x
  else .ub

/-- C library `realloc` of the block `[ob, ob+oc)` to `nc ≥ oc` bytes, which are found at `nb`
afterwards.  Which `nb` the allocator chooses is an argument (see `Alloc`). -/
def realloc (m : Mem) (ob oc nb nc : Nat) : Mem := fun x =>
  if nb ≤ x ∧ x < nb + nc then (if x - nb < oc then m (ob + (x - nb)) else some .undef)
  else if ob ≤ x ∧ x < ob + oc then none
  else m x

/-- include/nostr.h:156-160 `nostr_tag_arena` and the tags of include/nostr.h:165-175 `nostr_event`
(`tags` with `tags_count`), together with the memory.  The array `event->tags` is a block of its own,
reallocated to the exact length on every addition; it is kept as a list of pairs `(values, count)`. -/
structure St where
  mem : Mem
  base : Nat
  cap : Nat
  used : Nat
  tags : List (Nat × Nat)

/-- The allocator: in a state, for a requested size of the arena, the address of the new block, or `none` when
there is no memory. -/
abbrev Alloc := St → Nat → Option Nat

/-- event.c:45-64 `tag_arena_create`, called with 1024 by event.c:98-102 in `nostr_event_create`: the block
is at `base` and contains nothing. -/
def create (m : Mem) (base : Nat) : St :=
  { mem := fun x => if base ≤ x ∧ x < base + 1024 then some .undef else m x
    base := base, cap := 1024, used := 0, tags := [] }

/-- event.c:76-85 `tag_arena_alloc`. -/
def alloc (s : St) (size : Nat) : Option (Nat × St) :=
  if s.used > s.cap ∨ size > s.cap - s.used then none
  else some (s.base + s.used, { s with used := s.used + size })

/-- Pointer arithmetic `p + (new_memory - old_memory)`, event.c:179-184, nip13.c:95-101. -/
def shift (ob nb p : Nat) : Nat := p + nb - ob

/-- event.c:181-185, nip13.c:98-102: rewrite the `n` pointers from `a` on. -/
def movePtrs (ob nb : Nat) : Mem → Nat → Nat → Res Mem
  | m, _, 0 => .ok m
  | m, a, n + 1 =>
      readPtr m a >>= fun p =>
        if p = 0 then movePtrs ob nb m (a + 8) n
        else writePtr m a (shift ob nb p) >>= fun m1 => movePtrs ob nb m1 (a + 8) n

/-- event.c:179-186, nip13.c:96-103: rewrite the pointers of every tag. -/
def moveTags (ob nb : Nat) : Mem → List (Nat × Nat) → Res (Mem × List (Nat × Nat))
  | m, [] => .ok (m, [])
  | m, t :: ts =>
      movePtrs ob nb m (shift ob nb t.1) t.2 >>= fun m1 =>
        moveTags ob nb m1 ts >>= fun r => .ok (r.1, (shift ob nb t.1, t.2) :: r.2)

/-- event.c:170-190, nip13.c:87-107: enlarge the block; `none` when `realloc` fails. -/
def grow (A : Alloc) (s : St) (newCap : Nat) : Res (Option St) :=
  match A s newCap with
  | none => .ok none
  | some nb =>
      if nb = s.base then
        .ok (some { s with mem := realloc s.mem s.base s.cap nb newCap, cap := newCap })
      else
        moveTags s.base nb (realloc s.mem s.base s.cap nb newCap) s.tags >>= fun r =>
          .ok (some { mem := r.1, base := nb, cap := newCap, used := s.used, tags := r.2 })

/-- event.c:163-168: double the capacity until it is enough; `none` on wrap-around.  The first argument
bounds the number of rounds; 65 are enough for any capacity but 0, which stops at once. -/
def doubling : Nat → Nat → Nat → Option Nat
  | 0, _, _ => none
  | f + 1, cap, required =>
      if cap < required then
        if cap * 2 % 2 ^ 64 ≤ cap then none else doubling f (cap * 2 % 2 ^ 64) required
      else some cap

/-- event.c:147-157: the storage needed for the strings of the `n` values from `a` on. -/
def stringsSize (m : Mem) : Nat → Nat → Nat → Res Nat
  | _, 0, acc => .ok acc
  | a, n + 1, acc =>
      readPtr m a >>= fun p =>
        if p = 0 then .err .invalidParam
        else strlen m (2 ^ 64) p >>= fun len =>
          if acc > sizeMax - (len + 1) then .err .invalidParam
          else stringsSize m (a + 8) n (acc + (len + 1))

/-- event.c:214-219: copy the `n` strings whose addresses are stored from `a` on to `storage`, and store
their new addresses from `v` on. -/
def copyStrings : Mem → (a v storage n : Nat) → Res Mem
  | m, _, _, _, 0 => .ok m
  | m, a, v, storage, n + 1 =>
      readPtr m a >>= fun p =>
        strlen m (2 ^ 64) p >>= fun len =>
          memcpy m storage p (len + 1) >>= fun m1 =>
            writePtr m1 v storage >>= fun m2 =>
              copyStrings m2 (a + 8) (v + 8) (storage + (len + 1)) n

/-- event.c:193-222: with enough room in the block, append the tag.  `tagsMem` says whether the array of tags
could be enlarged. -/
def append (tagsMem : Bool) (s : St) (values count stringsSize : Nat) : Res (St × Option Err) :=
  if tagsMem = false then .ok (s, some .memory)
  else match alloc s (8 * count) with
    | none => .ok (s, some .memory)
    | some (v, s1) =>
        match alloc s1 stringsSize with
        | none => .ok (s1, some .memory)
        | some (storage, s2) =>
            copyStrings s2.mem values v storage count >>= fun m =>
              .ok ({ s2 with mem := m, tags := s2.tags ++ [(v, count)] }, none)

/-- event.c:159-191 and then `append`. -/
def place (A : Alloc) (tagsMem : Bool) (s : St) (values count strings : Nat) : Res (St × Option Err) :=
  if (s.used + (8 * count + strings)) % 2 ^ 64 > s.cap then
    match doubling 65 s.cap ((s.used + (8 * count + strings)) % 2 ^ 64) with
    | none => .ok (s, some .memory)
    | some newCap =>
        grow A s newCap >>= fun r =>
          match r with
          | none => .ok (s, some .memory)
          | some s1 => append tagsMem s1 values count strings
  else append tagsMem s values count strings

/-- event.c:134-223 `nostr_event_add_tag`: `values` is the address of an array of `count` pointers.
The result is the event afterwards and the error code (`none` for success). -/
def addTag (cfg : Option Config.Config) (A : Alloc) (tagsMem : Bool) (s : St) (values count : Nat) :
    Res (St × Option Err) :=
  if values = 0 ∨ count = 0 then .ok (s, some .invalidParam)
  else if cfg.any (fun c => decide (s.tags.length ≥ c.maxTags)) then .ok (s, some .invalidParam)
  else if count > sizeMax / 8 then .ok (s, some .invalidParam)
  else match stringsSize s.mem values count 0 with
    | .ub => .ub
    | .err e => .ok (s, some e)
    | .ok strings =>
        if 8 * count > sizeMax - strings then .ok (s, some .invalidParam)
        else place A tagsMem s values count strings

/-- What a reader finds in the `n` values whose addresses are stored from `a` on. -/
def readValues (m : Mem) : Nat → Nat → Res (List Bytes)
  | _, 0 => .ok []
  | a, n + 1 =>
      readPtr m a >>= fun p =>
        readStr m (2 ^ 64) p >>= fun s => readValues m (a + 8) n >>= fun ss => .ok (s :: ss)

/-- What a reader finds in the tags: `event->tags[i].values[j]` as a C string. -/
def readTags (m : Mem) : List (Nat × Nat) → Res (List (List Bytes))
  | [] => .ok []
  | t :: ts => readValues m t.1 t.2 >>= fun v => readTags m ts >>= fun vs => .ok (v :: vs)

/-! ## The nonce tag -/

/-- nip13.c:84-86: doubling without a check for wrap-around. -/
def doubling13 : Nat → Nat → Nat → Option Nat
  | 0, _, _ => none
  | f + 1, cap, required =>
      if cap < required then doubling13 f (cap * 2 % 2 ^ 64) required else some cap

/-- nip13.c:74-110 `arena_ensure_capacity`: `none` is the result -1. A loop which does not end is not an
outcome of the real program that a caller sees; it cannot occur (`ensure_ok`) and is `ub` here. -/
def ensure (A : Alloc) (s : St) (needed : Nat) : Res (Option St) :=
  if (s.used + needed) % 2 ^ 64 ≤ s.cap then .ok (some s)
  else match doubling13 65 s.cap ((s.used + needed) % 2 ^ 64) with
    | none => .ub
    | some newCap => grow A s newCap

/-- Storing the bytes of a text. -/
def writeBytes : Mem → Nat → Bytes → Res Mem
  | m, _, [] => .ok m
  | m, a, b :: bs =>
      if (m a).isSome then writeBytes (fun x => if x = a then some (.byte b) else m x) (a + 1) bs else .ub

/-- nip13.c:113-129 `arena_strdup` of a text in a local buffer: the new string and the event, or the event
alone when memory is exhausted. -/
def strdup (A : Alloc) (s : St) (text : Bytes) : Res (Option (Nat × St)) :=
  ensure A s (text.length + 1) >>= fun r =>
    match r with
    | none => .ok none
    | some s1 =>
        writeBytes s1.mem (s1.base + s1.used) (text ++ [0]) >>= fun m =>
          .ok (some (s1.base + s1.used, { s1 with mem := m, used := s1.used + (text.length + 1) }))

/-- `event->tags[i].values[j] = p` -/
def setValue (s : St) (i j p : Nat) : Res St :=
  writePtr s.mem ((s.tags.getD i (0, 0)).1 + 8 * j) p >>= fun m => .ok { s with mem := m }

/-- nip13.c:56-71 `find_nonce_tag_index`, from tag `i` on. -/
def findNonce (m : Mem) : List (Nat × Nat) → Nat → Res (Option Nat)
  | [], _ => .ok none
  | t :: ts, i =>
      if t.2 = 0 then findNonce m ts (i + 1)
      else readPtr m t.1 >>= fun p =>
        if p = 0 then findNonce m ts (i + 1)
        else readStr m (2 ^ 64) p >>= fun s =>
          if s = c!"nonce" then .ok (some i) else findNonce m ts (i + 1)

/-- nip13.c:170-181: the array of a nonce tag with fewer than three values is replaced by one of
three, the third being NULL. `none`: no memory. -/
def expand (A : Alloc) (s : St) (i : Nat) : Res (Option St) :=
  ensure A s 24 >>= fun r =>
    match r with
    | none => .ok none
    | some s1 =>
        readPtr s1.mem (s1.tags.getD i (0, 0)).1 >>= fun p0 =>
          writePtr s1.mem (s1.base + s1.used) p0 >>= fun m1 =>
            readPtr m1 ((s1.tags.getD i (0, 0)).1 + 8) >>= fun p1 =>
              writePtr m1 (s1.base + s1.used + 8) p1 >>= fun m2 =>
                writePtr m2 (s1.base + s1.used + 16) 0 >>= fun m3 =>
                  .ok (some { s1 with
                    mem := m3, used := s1.used + 24, tags := s1.tags.set i (s1.base + s1.used, 3) })

/-- nip13.c:184-188: the third value. -/
def setTarget (A : Alloc) (s : St) (i : Nat) (target : Bytes) : Res (St × Option Err) :=
  strdup A s target >>= fun r =>
    match r with
    | none => .ok (s, some .memory)
    | some (p, s1) => setValue s1 i 2 p >>= fun s2 => .ok (s2, none)

/-- nip13.c:155-191: the existing nonce tag `i` gets a new nonce and, when one is given, a new target. -/
def updateNonce (A : Alloc) (s : St) (i : Nat) (nonce : Bytes) (target : Option Bytes) :
    Res (St × Option Err) :=
  strdup A s nonce >>= fun r =>
    match r with
    | none => .ok (s, some .memory)
    | some (p, s1) =>
        setValue s1 i 1 p >>= fun s2 =>
          match target with
          | none => .ok ({ s2 with tags := s2.tags.set i ((s2.tags.getD i (0, 0)).1, 2) }, none)
          | some t =>
              if (s2.tags.getD i (0, 0)).2 < 3 then
                expand A s2 i >>= fun r2 =>
                  match r2 with
                  | none => .ok (s2, some .memory)
                  | some s3 => setTarget A s3 i t
              else setTarget A s2 i t

/-- nip13.c:131-198 `nostr_nip13_add_nonce_tag`: `locals` is the address of the local array `tag_values` with
the texts `nonce`, the number and the target (nip13.c:137-152). -/
def addNonce (cfg : Option Config.Config) (A : Alloc) (tagsMem : Bool) (s : St) (locals nonce : Nat)
    (target : Int) : Res (St × Option Err) :=
  findNonce s.mem s.tags 0 >>= fun r =>
    match r with
    | some i => updateNonce A s i (Num.decNat nonce) (if target > 0 then some (Num.decInt target) else none)
    | none => addTag cfg A tagsMem s locals (if target > 0 then 3 else 2)

end Nostr.Arena
