import Verif.Arena.Model
import Verif.Nip13.Model

/-!
# What callers and the allocator have to provide, and the histories of an event

The specification of the tag memory: which texts are in a memory, what a caller passes to
`nostr_event_add_tag`, what `realloc` promises, and which sequences of calls are considered.
-/

namespace Nostr.Arena
open Nostr

/-- The pointer `p` is stored at `a`. -/
def PtrAt (m : Mem) (a p : Nat) : Prop := ∀ k < 8, m (a + k) = some (.frag p k)

/-- The pointers `ps` are stored from `a` on. -/
def PtrsAt (m : Mem) : Nat → List Nat → Prop
  | _, [] => True
  | a, p :: ps => PtrAt m a p ∧ PtrsAt m (a + 8) ps

/-- The C string `s` is at `p`. -/
def StrAt (m : Mem) : Nat → Bytes → Prop
  | p, [] => m p = some (.byte 0)
  | p, b :: bs => m p = some (.byte b) ∧ b ≠ 0 ∧ StrAt m (p + 1) bs

/-- From `a` on there are the addresses of texts, and the texts are there; nothing of it lies in `[lo, hi)`. -/
def Src (m : Mem) (lo hi : Nat) : Nat → List (Nat × Bytes) → Prop
  | _, [] => True
  | a, q :: qs => (PtrAt m a q.1 ∧ q.1 ≠ 0 ∧ StrAt m q.1 q.2 ∧ q.1 + q.2.length < 2 ^ 64 ∧
      (a + 8 ≤ lo ∨ hi ≤ a) ∧ (q.1 + (q.2.length + 1) ≤ lo ∨ hi ≤ q.1)) ∧ Src m lo hi (a + 8) qs

/-- The caller's arguments: from `values` on there are the addresses of the texts `vs`, and neither they nor
the texts are in the memory of the event. -/
def Given (s : St) (values : Nat) (vs : List Bytes) : Prop :=
  values ≠ 0 ∧ ∃ ps : List Nat, ps.length = vs.length ∧ Src s.mem s.base (s.base + s.cap) values (ps.zip vs)

/-- What `realloc` promises about the address it returns: apart from the old block, the new one takes only
memory that is not in use; an object is smaller than `PTRDIFF_MAX`. -/
def Alloc.Valid (A : Alloc) : Prop :=
  ∀ s size nb, A s size = some nb → 0 < nb ∧ nb + size ≤ 2 ^ 64 ∧ size < 2 ^ 63 ∧
    ∀ x, nb ≤ x → x < nb + size → (s.base ≤ x ∧ x < s.base + s.cap) ∨ s.mem x = none

/-- The values of a nonce tag: the local array of `nostr_nip13_add_nonce_tag`. -/
def nonceValues (nonce : Nat) (target : Int) : List Bytes :=
  if target > 0 then [c!"nonce", Num.decNat nonce, Num.decInt target] else [c!"nonce", Num.decNat nonce]

/-- The histories of an event: it is created in unused memory; then, in any order, its owner does what they
like with the memory outside the event, adds tags, and sets the nonce.  The second argument is what the
tags should be. -/
inductive Hist (cfg : Option Config.Config) : St → List (List Bytes) → Prop
  | create {m : Mem} {base : Nat} : 0 < base → base + 1024 ≤ 2 ^ 64 →
      (∀ x, base ≤ x → x < base + 1024 → m x = none) → Hist cfg (Arena.create m base) []
  | caller {s : St} {ts : List (List Bytes)} {m : Mem} : Hist cfg s ts →
      (∀ x, s.base ≤ x → x < s.base + s.cap → m x = s.mem x) → Hist cfg { s with mem := m } ts
  | add {s s' : St} {ts : List (List Bytes)} {A : Alloc} {tagsMem : Bool} {values : Nat} {vs : List Bytes}
      {code : Option Err} : Hist cfg s ts → A.Valid → Given s values vs →
      addTag cfg A tagsMem s values vs.length = .ok (s', code) →
      Hist cfg s' (if code = none then ts ++ [vs] else ts)
  | nonce {s s' : St} {e e' : Event.Event} {A : Alloc} {tagsMem : Bool} {locals n : Nat} {target : Int} :
      Hist cfg s e.tags → A.Valid → Given s locals (nonceValues n target) → n < 2 ^ 64 → target < 2 ^ 31 →
      Nip13.addNonce cfg e n target = .ok e' →
      addNonce cfg A tagsMem s locals n target = .ok (s', none) → Hist cfg s' e'.tags

end Nostr.Arena
