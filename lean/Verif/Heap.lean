import Verif.Basic

/-!
# A small heap with failing allocation

Used to model who owns which block. A block is live from the `malloc`/`calloc`/`strdup` that returned it to
the `free` that releases it. Using, or freeing, a block that is not live is undefined behaviour (`none`).
The allocator is a parameter: it may return NULL at any time and may reuse freed addresses, but never returns
an address that is live.
-/

namespace Nostr.Heap
open Nostr

/-- Contents of a live block. -/
inductive Obj
  /-- a NUL-terminated string -/
  | str (s : Bytes)
  /-- `char**` -/
  | ptrs (l : List (Option Nat))
  /-- `int32_t*` -/
  | ints (l : List Int)
  /-- array of (name, `char**`, count) records -/
  | recs (l : List (UInt8 × Option Nat × Nat))
  deriving DecidableEq, Repr

/-- The live blocks. -/
abbrev Mem := Nat → Option Obj

/-- The live blocks and how many allocations were made so far. -/
structure Heap where
  mem : Mem
  tick : Nat

/-- The allocator: given the live blocks and the number of calls so far, an address or NULL. -/
abbrev Alloc := Mem → Nat → Option Nat

/-- What the C library promises: a returned address is not live. -/
def Fresh (A : Alloc) : Prop := ∀ m n a, A m n = some a → m a = none

/-- The allocator returns NULL in some memory that differs from `m0` in finitely many blocks only: what a caller who
starts from `m0` can call running out of memory. -/
def Refused (A : Alloc) (m0 : Mem) : Prop := ∃ m n, ∃ own : List Nat, (∀ a, a ∉ own → m a = m0 a) ∧ A m n = none

theorem Refused.here {A : Alloc} {m : Mem} {n : Nat} (h : A m n = none) : Refused A m := ⟨m, n, [], fun _ _ => rfl, h⟩

theorem Refused.back {A : Alloc} {m m0 : Mem} {own : List Nat} (h : Refused A m) (hs : ∀ a, a ∉ own → m a = m0 a) :
    Refused A m0 := by
  obtain ⟨m', n, own', h1, h2⟩ := h
  refine ⟨m', n, own' ++ own, fun a ha => ?_, h2⟩
  simp only [List.mem_append, not_or] at ha
  rw [h1 a ha.1, hs a ha.2]

/-- An allocator that never runs out: the first address that is not live. -/
noncomputable def generous : Alloc := fun m _ =>
  open Classical in if h : ∃ a, m a = none then some h.choose else none

theorem generous_fresh : Fresh generous := by
  intro m n a h
  unfold generous at h
  split at h
  · rename_i hx
    simp only [Option.some.injEq] at h
    rw [← h]; exact hx.choose_spec
  · simp at h

theorem le_sum {l : List Nat} {a : Nat} (h : a ∈ l) : a ≤ l.sum := by
  induction l with
  | nil => simp at h
  | cons b l ih =>
    rw [List.sum_cons]
    rcases List.mem_cons.1 h with rfl | h
    · omega
    · have := ih h; omega

/-- Running out is not a matter of course: with finitely many live blocks, `generous` never does. -/
theorem generous_never {m0 : Mem} {live : List Nat} (hf : ∀ a, a ∉ live → m0 a = none) : ¬ Refused generous m0 := by
  rintro ⟨m, n, own, h1, h2⟩
  unfold generous at h2
  split at h2
  · simp at h2
  · rename_i hx
    refine hx ⟨(own ++ live).sum + 1, ?_⟩
    have hn : (own ++ live).sum + 1 ∉ own ++ live := fun hm => by have := le_sum hm; omega
    simp only [List.mem_append, not_or] at hn
    rw [h1 _ hn.1, hf _ hn.2]

/-- A computation on the heap; `none` is undefined behaviour. -/
abbrev M (α : Type) := Heap → Option (α × Heap)

def M.pure {α} (x : α) : M α := fun h => some (x, h)
def M.bind {α β} (m : M α) (f : α → M β) : M β := fun h => (m h).bind fun r => f r.1 r.2

/-- Change one cell. -/
def upd (m : Mem) (a : Nat) (o : Option Obj) : Mem := fun b => if b = a then o else m b

/-- `malloc`, `calloc` or `strdup` of an object. -/
def alloc (A : Alloc) (o : Obj) : M (Option Nat) := fun h =>
  match A h.mem h.tick with
  | none => some (none, ⟨h.mem, h.tick + 1⟩)
  | some a => some (some a, ⟨upd h.mem a (some o), h.tick + 1⟩)

/-- `free`. -/
def free (p : Option Nat) : M Unit := fun h =>
  match p with
  | none => some ((), h)
  | some a => if (h.mem a).isSome then some ((), ⟨upd h.mem a none, h.tick⟩) else none

/-- Read a block. -/
def load (a : Nat) : M Obj := fun h => (h.mem a).map fun o => (o, h)

/-- Overwrite a block. -/
def store (a : Nat) (o : Obj) : M Unit := fun h =>
  if (h.mem a).isSome then some ((), ⟨upd h.mem a (some o), h.tick⟩) else none

/-- `p[i]` for a `char**`. -/
def loadPtr (p : Option Nat) (i : Nat) : M (Option Nat) := fun h =>
  match p with
  | none => none
  | some a => match h.mem a with
    | some (.ptrs l) => (l[i]?).map fun q => (q, h)
    | _ => none

/-- `p[i] = q` for a `char**`. -/
def storePtr (a i : Nat) (q : Option Nat) : M Unit := fun h =>
  match h.mem a with
  | some (.ptrs l) => if i < l.length then some ((), ⟨upd h.mem a (some (.ptrs (l.set i q))), h.tick⟩) else none
  | _ => none

/-- Read a string. -/
def loadStr (p : Nat) : M Bytes := fun h =>
  match h.mem p with
  | some (.str s) => some (s, h)
  | _ => none

/-- `for (j = i; j < i + n; j++) free(p[j])`. -/
def freePtrs (p : Option Nat) : Nat → Nat → M Unit
  | 0, _ => M.pure ()
  | n + 1, i => M.bind (loadPtr p i) fun q => M.bind (free q) fun _ => freePtrs p n (i + 1)

/-- `if (p) { for (j = 0; j < n; j++) free(p[j]); free(p); }`. -/
def freeStrings (p : Option Nat) (n : Nat) : M Unit :=
  match p with
  | none => M.pure ()
  | some a => M.bind (freePtrs (some a) n 0) fun _ => free (some a)

/-! ## Representation -/

/-- The blocks `ps` hold the strings `l`. -/
inductive Strings (m : Mem) : List Nat → List Bytes → Prop
  | nil : Strings m [] []
  | cons {p s ps l} (h : m p = some (.str s)) (t : Strings m ps l) : Strings m (p :: ps) (s :: l)

/-- `(p, n)` is a `char**` with its count holding the strings `l`, using exactly the blocks `own`. The array
may be longer than the count. -/
inductive StrArr (m : Mem) : Option Nat → Nat → List Bytes → List Nat → Prop
  | null : StrArr m none 0 [] []
  | arr {a ps l rest} (ha : m a = some (.ptrs (ps.map some ++ rest))) (hs : Strings m ps l) :
      StrArr m (some a) ps.length l (a :: ps)

/-- The memory with the blocks `own` gone. -/
def without (m : Mem) (own : List Nat) : Mem := fun a => if a ∈ own then none else m a

@[simp] theorem upd_same (m : Mem) (a o) : upd m a o a = o := by simp [upd]
theorem upd_other (m : Mem) {a b} (o) (h : b ≠ a) : upd m a o b = m b := by simp [upd, h]
theorem without_nil (m : Mem) : without m [] = m := by funext a; simp [without]
theorem without_other (m : Mem) {own a} (h : a ∉ own) : without m own a = m a := by simp [without, h]
theorem without_cons (m : Mem) (a own) : upd (without m own) a none = without m (a :: own) := by
  funext b; by_cases h : b = a <;> simp [upd, without, h]
theorem upd_none_without (m : Mem) (a own) : without (upd m a none) own = without m (a :: own) := by
  funext b; by_cases h : b = a <;> simp [upd, without, h]
theorem without_append (m : Mem) (a b) : without (without m a) b = without m (a ++ b) := by
  funext x; by_cases h : x ∈ a <;> by_cases h' : x ∈ b <;> simp [without, h, h']
theorem without_comm (m : Mem) (a b : List Nat) : without m (a ++ b) = without m (b ++ a) := by
  funext x; simp [without, or_comm]
theorem without_congr (m : Mem) {a b : List Nat} (h : ∀ x, x ∈ a ↔ x ∈ b) : without m a = without m b := by
  funext x; simp [without, h]
theorem without_fresh {m m' : Mem} {own : List Nat} (h1 : ∀ a ∈ own, m a = none)
    (h2 : ∀ a, a ∉ own → m' a = m a) : without m' own = m := by
  funext x; by_cases h : x ∈ own
  · simp [without, h, h1 x h]
  · simp [without, h, h2 x h]

theorem Strings.length {m ps l} (h : Strings m ps l) : ps.length = l.length := by
  induction h with
  | nil => rfl
  | cons _ _ ih => simp [ih]

theorem Strings.mono {m m' : Mem} {ps l} (h : Strings m ps l) (hm : ∀ a ∈ ps, m' a = m a) :
    Strings m' ps l := by
  induction h with
  | nil => exact .nil
  | cons h _ ih =>
    exact .cons ((hm _ List.mem_cons_self).trans h) (ih fun a ha => hm a (List.mem_cons_of_mem _ ha))

theorem Strings.append {m ps l qs k} (h : Strings m ps l) (h' : Strings m qs k) :
    Strings m (ps ++ qs) (l ++ k) := by
  induction h with
  | nil => exact h'
  | cons h _ ih => exact .cons h ih

theorem Strings.live {m ps l} (h : Strings m ps l) : ∀ a ∈ ps, m a ≠ none := by
  induction h with
  | nil => simp
  | cons h _ ih =>
    intro a ha
    rcases List.mem_cons.1 ha with rfl | ha
    · rw [h]; simp
    · exact ih a ha

theorem StrArr.mono {m m' : Mem} {p n l own} (h : StrArr m p n l own) (hm : ∀ a ∈ own, m' a = m a) :
    StrArr m' p n l own := by
  cases h with
  | null => exact .null
  | arr ha hs =>
    exact .arr ((hm _ List.mem_cons_self).trans ha) (hs.mono fun a ha => hm a (List.mem_cons_of_mem _ ha))

theorem StrArr.live {m p n l own} (h : StrArr m p n l own) : ∀ a ∈ own, m a ≠ none := by
  cases h with
  | null => simp
  | arr ha hs =>
    intro b hb
    rcases List.mem_cons.1 hb with rfl | hb
    · rw [ha]; simp
    · exact hs.live b hb

theorem StrArr.length {m p n l own} (h : StrArr m p n l own) : n = l.length := by
  cases h with
  | null => rfl
  | arr ha hs => exact hs.length

/-! ## Freeing -/

theorem freePtrs_ok (a : Nat) : ∀ (ps : List Nat) (l : List Bytes) (pre : List (Option Nat)) (rest) (h : Heap),
    h.mem a = some (.ptrs (pre ++ ps.map some ++ rest)) → Strings h.mem ps l → ps.Nodup → a ∉ ps →
    freePtrs (some a) ps.length pre.length h = some ((), ⟨without h.mem ps, h.tick⟩) := by
  intro ps
  induction ps with
  | nil => intro l pre rest h ha hs _ _; simp [freePtrs, M.pure, without_nil]
  | cons p ps ih =>
    intro l pre rest h ha hs hn hna
    cases hs with
    | cons hp ht =>
    rw [List.nodup_cons] at hn
    simp only [List.mem_cons, not_or] at hna
    simp only [List.length_cons, freePtrs, M.bind, loadPtr, ha]
    have : (pre ++ List.map some (p :: ps) ++ rest)[pre.length]? = some (some p) := by simp
    simp only [this, Option.map_some, Option.bind_some, free, hp, Option.isSome_some, if_true]
    have key := ih _ (pre ++ [some p]) rest ⟨upd h.mem p none, h.tick⟩
      (by simp only [upd_other _ _ hna.1, ha]; simp) (ht.mono fun b hb => upd_other _ _ (by rintro rfl; exact hn.1 hb))
      hn.2 hna.2
    rw [List.length_append, List.length_singleton] at key
    rw [key, upd_none_without]

theorem freeStrings_ok {p n l own} {h : Heap} (hr : StrArr h.mem p n l own) (hn : own.Nodup) :
    freeStrings p n h = some ((), ⟨without h.mem own, h.tick⟩) := by
  cases hr with
  | null => simp [freeStrings, M.pure, without_nil]
  | @arr a ps l rest ha hs =>
    rw [List.nodup_cons] at hn
    unfold freeStrings
    simp only [M.bind]
    have := freePtrs_ok a ps l [] rest h (by simpa using ha) hs hn.2 hn.1
    rw [List.length_nil] at this
    rw [this]
    simp only [Option.bind_some, free, without_other _ hn.1, ha, Option.isSome_some, if_true, without_cons]

end Nostr.Heap
