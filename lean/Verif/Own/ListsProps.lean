import Verif.Own.Basic
import Verif.Own.Lists
import Verif.Own.EvProps
import Verif.Nip51.Props

/-! # Property theorems: memory of a list (C153, C154) -/

namespace Nostr.Own.Lists.Props
open Nostr Nostr.Heap Nostr.Own Nostr.Own.Lists Nostr.Nip51 Nostr.Nip51.Spec

/-! ## Specification -/

/-- The texts and the items of a list, as values. -/
structure Val where
  d : Option Bytes := none
  title : Option Bytes := none
  descr : Option Bytes := none
  image : Option Bytes := none
  items : List Item := []
  deriving DecidableEq

def Val.field (v : Val) : Field → Option Bytes
  | .d => v.d
  | .title => v.title
  | .descr => v.descr
  | .image => v.image

def Val.setField (v : Val) (f : Field) (o : Option Bytes) : Val :=
  match f with
  | .d => { v with d := o }
  | .title => { v with title := o }
  | .descr => { v with descr := o }
  | .image => { v with image := o }

/-- A pointer that is NULL or points to the block with the text. -/
def Tx (m : Mem) (p : Option Nat) (o : Option Bytes) : Prop := OptS m p o p.toList

/-- An item in memory. -/
structure HoldsItem (m : Mem) (x : HItem) (it : Item) : Prop where
  type : Tx m x.type (some it.type)
  value : Tx m x.value (some it.value)
  hint : Tx m x.hint it.hint
  pet : Tx m x.pet it.pet
  priv : x.priv = it.priv

/-- Items in memory, in order. -/
inductive HoldsItems (m : Mem) : List HItem → List Item → Prop
  | nil : HoldsItems m [] []
  | cons {x it xs its} (h : HoldsItem m x it) (t : HoldsItems m xs its) : HoldsItems m (x :: xs) (it :: its)

/-- The list in memory holds the values. -/
structure Holds (m : Mem) (l : HList) (v : Val) : Prop where
  field : ∀ f, Tx m (l.field f) (v.field f)
  items : HoldsItems m l.items v.items

/-- The blocks of the texts of an item. -/
def itemBlocks (x : HItem) : List Nat := x.type.toList ++ (x.value.toList ++ (x.hint.toList ++ x.pet.toList))

/-- The blocks of the texts of a list and its items. -/
def texts (l : HList) : List Nat :=
  l.d.toList ++ (l.title.toList ++ (l.descr.toList ++ (l.image.toList ++ l.items.flatMap itemBlocks)))

/-- The blocks of a list. -/
def blocks (l : HList) : List Nat := l.arr :: l.self :: texts l

/-- Compared with `h0`, the memory `m` has exactly the blocks of the list more, and the list holds `v`. -/
def Has (h0 m : Mem) (l : HList) (v : Val) : Prop := Holds m l v ∧ Owned h0 m (blocks l)

def itemPart (it : Item) : Part → Option Bytes
  | .type => some it.type
  | .value => some it.value
  | .hint => it.hint
  | .pet => it.pet

/-- The text that is passed; `none` is NULL. -/
def text (h0 : Mem) (v : Val) : Src → Option Bytes
  | .null => none
  | .text p => match h0 p with
    | some (.str t) => some t
    | _ => none
  | .field f => v.field f
  | .item i w => (v.items[i]?).bind fun it => itemPart it w

/-- A text of the caller is live. -/
def Live (h0 : Mem) (s : Src) : Prop := ∀ p, s = .text p → ∃ t, h0 p = some (.str t)

/-- The caller passes live texts, and does not set a text of the list to itself. -/
def Sound (h0 : Mem) : Call → Prop
  | .set f s => Live h0 s ∧ s ≠ .field f
  | .add _ a b c _ => Live h0 a ∧ Live h0 b ∧ Live h0 c
  | .remove _ => True

/-- What one call may do to the values, and what it returns. -/
inductive Did (A : Alloc) (h0 : Mem) : Val → Call → Option Err → Val → Prop
  | set {v f s} : Did A h0 v (.set f s) none (v.setField f (text h0 v s))
  | lost {v f s} (ht : text h0 v s ≠ none) (hm : Refused A h0) : Did A h0 v (.set f s) (some .memory) (v.setField f none)
  | added {v w a b c priv x} (hx : w.args (text h0 v a) (text h0 v b) (text h0 v c) = some x) (hv : Valid x) (hl : v.items.length < 4096) :
      Did A h0 v (.add w a b c priv) none { v with items := v.items ++ [made x priv] }
  | invalid {v w a b c priv} (hx : ∀ x, w.args (text h0 v a) (text h0 v b) (text h0 v c) = some x → ¬ Valid x) :
      Did A h0 v (.add w a b c priv) (some .invalidParam) v
  | noRoom {v w a b c priv x} (hx : w.args (text h0 v a) (text h0 v b) (text h0 v c) = some x) (hv : Valid x)
      (hl : v.items.length = 4096 ∨ Refused A h0) : Did A h0 v (.add w a b c priv) (some .memory) v
  | removed {v i} (hi : i < v.items.length) : Did A h0 v (.remove i) none { v with items := v.items.take i ++ v.items.drop (i + 1) }
  | noIndex {v i} (hi : v.items.length ≤ i) : Did A h0 v (.remove i) (some .invalidParam) v

/-- What a sequence of calls may do. -/
inductive Went (A : Alloc) (h0 : Mem) : Val → List Call → List (Option Err) → Val → Prop
  | nil {v} : Went A h0 v [] [] v
  | cons {v v1 v2 c cs r rs} (h : Did A h0 v c r v1) (t : Went A h0 v1 cs rs v2) : Went A h0 v (c :: cs) (r :: rs) v2

/-! ## Lemmas -/

theorem Tx.mono {m m' : Mem} {p o} (h : Tx m p o) (hm : ∀ a ∈ p.toList, m' a = m a) : Tx m' p o := OptS.mono h hm

theorem Tx.null {m : Mem} : Tx m none none := OptS.null

theorem Tx.some_iff {m : Mem} {p t} (h : Tx m p (some t)) : ∃ a, p = some a ∧ m a = some (.str t) := by
  unfold Tx at h
  generalize hq : p.toList = q at h
  cases h with
  | @str a s h => exact ⟨a, rfl, h⟩

theorem Tx.none_iff {m : Mem} {p} (h : Tx m p none) : p = none := by
  unfold Tx at h
  generalize hq : p.toList = q at h
  cases h; rfl

theorem HoldsItem.mono {m m' : Mem} {x it} (h : HoldsItem m x it) (hm : ∀ a ∈ itemBlocks x, m' a = m a) : HoldsItem m' x it :=
  ⟨h.type.mono fun a ha => hm a (by simp [itemBlocks]; simp at ha; exact .inl ha),
   h.value.mono fun a ha => hm a (by simp [itemBlocks]; simp at ha; exact .inr (.inl ha)),
   h.hint.mono fun a ha => hm a (by simp [itemBlocks]; simp at ha; exact .inr (.inr (.inl ha))),
   h.pet.mono fun a ha => hm a (by simp [itemBlocks]; simp at ha; exact .inr (.inr (.inr ha))), h.priv⟩

theorem HoldsItems.mono {m m' : Mem} {xs its} (h : HoldsItems m xs its) (hm : ∀ a ∈ xs.flatMap itemBlocks, m' a = m a) :
    HoldsItems m' xs its := by
  induction h with
  | nil => exact .nil
  | cons h _ ih =>
    exact .cons (h.mono fun a ha => hm a (by rw [List.flatMap_cons]; exact List.mem_append_left _ ha))
      (ih fun a ha => hm a (by rw [List.flatMap_cons]; exact List.mem_append_right _ ha))

theorem HoldsItems.append {m : Mem} {xs its ys jts} (h : HoldsItems m xs its) (h' : HoldsItems m ys jts) :
    HoldsItems m (xs ++ ys) (its ++ jts) := by
  induction h with
  | nil => exact h'
  | cons h _ ih => exact .cons h ih

theorem HoldsItems.length {m : Mem} {xs its} (h : HoldsItems m xs its) : xs.length = its.length := by
  induction h with
  | nil => rfl
  | cons _ _ ih => simp [ih]

theorem HoldsItems.at {m : Mem} {xs its} (h : HoldsItems m xs its) : ∀ n : Nat,
    (xs[n]? = none ∧ its[n]? = none) ∨
    ∃ x it pre post ipre ipost, xs[n]? = some x ∧ its[n]? = some it ∧ HoldsItem m x it ∧ xs = pre ++ x :: post ∧ its = ipre ++ it :: ipost ∧
      pre.length = n ∧ HoldsItems m pre ipre ∧ HoldsItems m post ipost := by
  induction h with
  | nil => intro n; exact .inl ⟨rfl, rfl⟩
  | @cons x it xs its h t ih =>
    intro n
    cases n with
    | zero => exact .inr ⟨x, it, [], xs, [], its, rfl, rfl, h, rfl, rfl, rfl, .nil, t⟩
    | succ n =>
      rcases ih n with ⟨h1, h2⟩ | ⟨y, jt, pre, post, ipre, ipost, h1, h2, h3, h4, h5, h6, h7, h8⟩
      · exact .inl ⟨by simpa using h1, by simpa using h2⟩
      · exact .inr ⟨y, jt, x :: pre, post, it :: ipre, ipost, by simpa using h1, by simpa using h2, h3, by simp [h4], by simp [h5], by simp [h6],
          .cons h h7, h8⟩

theorem field_sub (l : HList) (f : Field) : ∀ a ∈ (l.field f).toList, a ∈ texts l := by
  intro a ha
  cases f <;> simp only [HList.field] at ha <;> simp [texts] <;> simp at ha <;> simp [ha]

theorem Holds.mono {m m' : Mem} {l v} (h : Holds m l v) (hm : ∀ a ∈ texts l, m' a = m a) : Holds m' l v :=
  ⟨fun f => (h.field f).mono fun a ha => hm a (field_sub l f a ha),
   h.items.mono fun a ha => hm a (by simp only [texts, List.mem_append]; exact .inr (.inr (.inr (.inr ha))))⟩

/-- The list with what is known about its array; `extra` are other blocks. -/
structure Inv (h0 m : Mem) (l : HList) (v : Val) (extra : List Nat) : Prop where
  holds : Holds m l v
  own : Owned h0 m (blocks l ++ extra)
  room : l.items.length ≤ l.cap
  min : 8 ≤ l.cap
  max : l.cap ≤ 4096

theorem Inv.count {h0 m l v extra} (i : Inv h0 m l v extra) : l.items.length = v.items.length := i.holds.items.length

theorem Inv.has {h0 m l v} (i : Inv h0 m l v []) : Has h0 m l v := ⟨i.holds, by simpa using i.own⟩

theorem touch_ok {h : Heap} {a i n : Nat} (ha : h.mem a ≠ none) (hi : i < n) : touch a i n h = some ((), h) := by
  unfold touch
  rw [if_pos ⟨by cases hm : h.mem a <;> simp_all, hi⟩]

theorem freeItem_ok {h0 : Mem} {h : Heap} {x : HItem} {b : List Nat} (o : Owned h0 h.mem (itemBlocks x ++ b)) :
    ∃ h', freeItem x h = some ((), h') ∧ Owned h0 h'.mem b ∧ ∀ a ∈ b, h'.mem a = h.mem a := by
  unfold itemBlocks at o
  simp only [List.append_assoc] at o
  obtain ⟨h1, e1, o1, k1⟩ := freeP o
  obtain ⟨h2, e2, o2, k2⟩ := freeP o1
  obtain ⟨h3, e3, o3, k3⟩ := freeP o2
  obtain ⟨h4, e4, o4, k4⟩ := freeP o3
  refine ⟨h4, ?_, o4, fun a ha => ?_⟩
  · simp only [freeItem, M.bind, e1, e2, e3, e4, Option.bind_some]
  · rw [k4 a ha, k3 a (by simp [ha]), k2 a (by simp [ha]), k1 a (by simp [ha])]

theorem freeItems_ok {h0 : Mem} {arr n : Nat} : ∀ (xs : List HItem) (i : Nat) {h : Heap} {b : List Nat}, arr ∈ b → i + xs.length ≤ n →
    Owned h0 h.mem (xs.flatMap itemBlocks ++ b) → ∃ h', freeItems arr n i xs h = some ((), h') ∧ Owned h0 h'.mem b := by
  intro xs
  induction xs with
  | nil => intro i h b _ _ o; exact ⟨h, rfl, o⟩
  | cons x xs ih =>
    intro i h b hb hn o
    rw [List.flatMap_cons, List.append_assoc] at o
    simp only [List.length_cons] at hn
    have e0 := touch_ok (h := h) (n := n) (i := i) (o.live arr (by simp [hb])) (by omega)
    obtain ⟨h1, e1, o1, -⟩ := freeItem_ok o
    obtain ⟨h2, e2, o2⟩ := ih (i + 1) hb (by omega) o1
    exact ⟨h2, by simp only [freeItems, M.bind, e0, e1, e2, Option.bind_some], o2⟩

/-- Two lists of blocks with the same blocks. -/
theorem Owned.same_blocks {h0 m : Mem} {a b : List Nat} (o : Owned h0 m a) (h : ∀ x, a.count x = b.count x) : Owned h0 m b :=
  o.perm (List.perm_iff_count.2 h)

theorem destroy_ok {h0 : Mem} {h : Heap} {l v extra} (i : Inv h0 h.mem l v extra) :
    ∃ h', destroy l h = some ((), h') ∧ Owned h0 h'.mem extra := by
  have o : Owned h0 h.mem (l.items.flatMap itemBlocks ++ (l.arr :: (l.d.toList ++ (l.title.toList ++ (l.descr.toList ++ (l.image.toList ++ (l.self :: extra))))))) :=
    Owned.same_blocks i.own fun x => by
      simp only [blocks, texts, List.count_append, List.count_cons, List.cons_append]; omega
  obtain ⟨h1, e1, o1⟩ := freeItems_ok l.items 0 (arr := l.arr) (n := l.cap) (by simp) (by have := i.room; omega) o
  obtain ⟨h2, e2, o2, -⟩ := freeP (p := some l.arr) o1
  obtain ⟨h3, e3, o3, -⟩ := freeP o2
  obtain ⟨h4, e4, o4, -⟩ := freeP o3
  obtain ⟨h5, e5, o5, -⟩ := freeP o4
  obtain ⟨h6, e6, o6, -⟩ := freeP o5
  obtain ⟨h7, e7, o7, -⟩ := freeP (p := some l.self) o6
  exact ⟨h7, by simp only [destroy, M.bind, e1, e2, e3, e4, e5, e6, e7, Option.bind_some], o7⟩

theorem create_ok {A : Alloc} (hA : Fresh A) (kind : Nat) (h : Heap) :
    (∃ h', create A kind h = some (none, h') ∧ h'.mem = h.mem ∧ Refused A h.mem) ∨
    ∃ l h', create A kind h = some (some l, h') ∧ Inv h.mem h'.mem l {} [] ∧ l.kind = kind := by
  unfold create
  rcases allocP hA (Owned.nil h.mem) Ev.blob with ⟨h1, e1, m1, f1⟩ | ⟨a, h1, e1, v1, o1, k1⟩
  · refine .inl ⟨h1, ?_, m1, f1⟩
    simp only [M.bind, e1, Option.bind_some, M.pure]
  · rcases allocP hA o1 Ev.blob with ⟨h2, e2, m2, f2⟩ | ⟨b, h2, e2, v2, o2, k2⟩
    · obtain ⟨h3, e3, o3, -⟩ := freeP (h := h2) (p := some a) (b := []) (by rw [m2]; exact o1)
      refine .inl ⟨h3, ?_, o3.eq, f2⟩
      simp only [M.bind, e1, e2, e3, Option.bind_some, M.pure]
    · refine .inr ⟨⟨a, kind, none, none, none, none, b, [], 8⟩, h2, ?_, ⟨⟨fun f => ?_, .nil⟩, o2, by simp, by simp, by simp⟩, rfl⟩
      · simp only [M.bind, e1, e2, Option.bind_some, M.pure]
      · cases f <;> exact .null

/-- Reading gives `t` in every memory that has the blocks `keep` of `m`. -/
def Reads (h0 m : Mem) (keep : List Nat) (rd : M Bytes) (t : Bytes) : Prop :=
  ∀ (h' : Heap) own, Owned h0 h'.mem own → (∀ x ∈ keep, h'.mem x = m x) → rd h' = some (t, h')

/-- The same, for a text or NULL. -/
inductive ReadsO (h0 m : Mem) (keep : List Nat) : Option (M Bytes) → Option Bytes → Prop
  | null : ReadsO h0 m keep none none
  | text {rd t} (h : Reads h0 m keep rd t) : ReadsO h0 m keep (some rd) (some t)

theorem ReadsO.pure {h0 m keep} (o : Option Bytes) : ReadsO h0 m keep (o.map M.pure) o := by
  cases o with
  | none => exact .null
  | some t => exact .text fun _ _ _ _ => rfl

theorem ReadsO.isSome {h0 m keep rd o} (h : ReadsO h0 m keep rd o) : rd.isSome = o.isSome := by cases h <;> rfl

theorem dup_ok {A : Alloc} (hA : Fresh A) {h0 m : Mem} {h : Heap} {keep own : List Nat} {rd o} (o1 : Owned h0 h.mem own)
    (hk : ∀ x ∈ keep, h.mem x = m x) (hr : ReadsO h0 m keep rd o) :
    ∃ p h', dup A rd h = some (p, h') ∧ Owned h0 h'.mem (p.toList ++ own) ∧ (∀ x ∈ own, h'.mem x = h.mem x) ∧
      (Tx h'.mem p o ∨ (p = none ∧ o ≠ none ∧ Refused A h0)) := by
  cases hr with
  | null => exact ⟨none, h, rfl, o1, fun _ _ => rfl, .inl .null⟩
  | @text r t hr =>
    have e0 := hr h own o1 hk
    rcases allocP hA o1 (.str t) with ⟨h1, e1, m1, f1⟩ | ⟨c, h1, e1, v1, o2, k1⟩
    · refine ⟨none, h1, ?_, by rw [m1]; exact o1, fun _ _ => by rw [m1], .inr ⟨rfl, by simp, f1⟩⟩
      simp only [dup, M.bind, e0, e1, Option.bind_some]
    · refine ⟨some c, h1, ?_, o2, k1, .inl (.str v1)⟩
      simp only [dup, M.bind, e0, e1, Option.bind_some]

/-- The texts of a list that stay when one of them is set. -/
def others (l : HList) (f : Field) : List Nat := texts (l.setField f none)

theorem set_ok {A : Alloc} (hA : Fresh A) {h0 : Mem} {h : Heap} {l v extra} (i : Inv h0 h.mem l v extra) (f : Field) {rd o}
    (hr : ReadsO h0 h.mem (others l f) rd o) :
    ∃ r l' h' o', set A l f rd h = some ((r, l'), h') ∧ Inv h0 h'.mem l' (v.setField f o') extra ∧ l'.kind = l.kind ∧
      ((r = none ∧ o' = o) ∨ (r = some .memory ∧ o' = none ∧ o ≠ none ∧ Refused A h0)) := by
  have oo : Owned h0 h.mem ((l.field f).toList ++ (l.arr :: l.self :: (others l f ++ extra))) :=
    Owned.same_blocks i.own fun x => by
      cases f <;> simp only [blocks, texts, others, HList.field, HList.setField, List.count_append, List.count_cons, List.cons_append, Option.toList_none, List.nil_append] <;> omega
  obtain ⟨h1, e1, o1, k1⟩ := freeP oo
  obtain ⟨p, h2, e2, o2, k2, ht⟩ := dup_ok hA (m := h.mem) o1 (fun x hx => k1 x (by simp [hx])) hr
  have kk : ∀ x ∈ others l f, h2.mem x = h.mem x := fun x hx => by rw [k2 x (by simp [hx]), k1 x (by simp [hx])]
  have inv : ∀ o', Tx h2.mem p o' → Inv h0 h2.mem (l.setField f p) (v.setField f o') extra := by
    intro o' hp
    refine ⟨⟨?_, ?_⟩, ?_, ?_, ?_, ?_⟩
    · intro g
      have hg : g ≠ f → (l.setField f p).field g = l.field g ∧ (v.setField f o').field g = v.field g ∧ (∀ a ∈ (l.field g).toList, a ∈ others l f) := by
        intro hgf
        have := field_sub (l.setField f none) g
        cases f <;> cases g <;> first | exact absurd rfl hgf | exact ⟨rfl, rfl, this⟩
      by_cases hgf : g = f
      · subst hgf
        cases g <;> exact hp
      · rw [(hg hgf).1, (hg hgf).2.1]
        exact (i.holds.field g).mono fun a ha => kk a ((hg hgf).2.2 a ha)
    · have e : (l.setField f p).items = l.items ∧ (v.setField f o').items = v.items := by cases f <;> exact ⟨rfl, rfl⟩
      rw [e.1, e.2]
      refine i.holds.items.mono fun a ha => kk a ?_
      cases f <;> simp only [others, texts, HList.setField, List.mem_append] <;> exact .inr (.inr (.inr (.inr ha)))
    · refine Owned.same_blocks o2 fun x => ?_
      cases f <;> simp only [blocks, texts, others, HList.setField, List.count_append, List.count_cons, List.cons_append, Option.toList_none, List.nil_append] <;> omega
    · cases f <;> exact i.room
    · cases f <;> exact i.min
    · cases f <;> exact i.max
  have hkind : (l.setField f p).kind = l.kind := by cases f <;> rfl
  rcases ht with ht | ⟨hp, ho, hf⟩
  · refine ⟨none, l.setField f p, h2, o, ?_, inv o ht, hkind, .inl ⟨rfl, rfl⟩⟩
    simp only [set, M.bind, e1, e2, Option.bind_some, M.pure]
    rw [if_neg]
    rintro ⟨h1, rfl⟩
    rw [hr.isSome] at h1
    cases o with
    | none => simp at h1
    | some t => obtain ⟨a, ha, -⟩ := ht.some_iff; simp at ha
  · refine ⟨some .memory, l.setField f p, h2, none, ?_, inv none (hp ▸ .null), hkind, .inr ⟨rfl, rfl, ho, hf⟩⟩
    simp only [set, M.bind, e1, e2, Option.bind_some, M.pure]
    rw [if_pos ⟨by rw [hr.isSome]; cases o <;> simp_all, hp⟩]

theorem ensure_ok {A : Alloc} (hA : Fresh A) {h0 : Mem} {h : Heap} {l v extra} (i : Inv h0 h.mem l v extra) :
    (∃ h', ensure A l h = some ((some .memory, l), h') ∧ h'.mem = h.mem ∧ (v.items.length = 4096 ∨ Refused A h0)) ∨
    ∃ l' h', ensure A l h = some ((none, l'), h') ∧ Inv h0 h'.mem l' v extra ∧ l'.items.length < l'.cap ∧ texts l' = texts l ∧ l'.kind = l.kind ∧
      ∀ x ∈ texts l, h'.mem x = h.mem x := by
  unfold ensure
  have h1 := i.count
  have h3 := i.room
  have h4 := i.min
  have h5 := i.max
  by_cases hc : l.items.length ≥ l.cap
  · rw [if_pos hc]
    by_cases hm : min (l.cap * 2) 4096 ≤ l.items.length
    · rw [if_pos hm]
      exact .inl ⟨h, rfl, rfl, .inl (by omega)⟩
    · rw [if_neg hm]
      rcases Ev.Props.resizeP hA (p := some l.arr) (b := l.self :: (texts l ++ extra)) i.own with ⟨h', e1, m1, f1⟩ | ⟨a, h', e1, o1, k1⟩
      · refine .inl ⟨h', ?_, m1, .inr f1⟩
        simp only [M.bind, e1, Option.bind_some, M.pure]
      · refine .inr ⟨{ l with arr := a, cap := min (l.cap * 2) 4096 }, h', ?_, ⟨?_, o1, ?_, ?_, ?_⟩, ?_, rfl, rfl, fun x hx => k1 x (by simp [hx])⟩
        · simp only [M.bind, e1, Option.bind_some, M.pure]
        · have := i.holds.mono (m' := h'.mem) fun x hx => k1 x (by simp [hx])
          exact ⟨fun f => by have := this.field f; cases f <;> exact this, this.items⟩
        · simp only; omega
        · simp only; omega
        · simp only; omega
        · simp only; omega
  · rw [if_neg hc]
    exact .inr ⟨l, h, rfl, i, by omega, rfl, rfl, fun _ _ => rfl⟩

/-- What adding an item comes to. -/
inductive Added (A : Alloc) (h0 : Mem) (l : HList) (v : Val) (it : Item) (extra : List Nat) : Option Err → HList → Heap → Prop
  | noMemory {l' h'} (hm : v.items.length = 4096 ∨ Refused A h0) (hk : l'.kind = l.kind) (i : Inv h0 h'.mem l' v extra) : Added A h0 l v it extra (some .memory) l' h'
  | added {l' h'} (hs : v.items.length < 4096) (hk : l'.kind = l.kind) (i : Inv h0 h'.mem l' { v with items := v.items ++ [it] } extra) : Added A h0 l v it extra none l' h'

theorem addItem_ok {A : Alloc} (hA : Fresh A) {h0 : Mem} {h : Heap} {l v extra} (i : Inv h0 h.mem l v extra) {rt rv rh rp} (it : Item)
    (h1 : ReadsO h0 h.mem (texts l) rt (some it.type)) (h2 : ReadsO h0 h.mem (texts l) rv (some it.value))
    (h3 : ReadsO h0 h.mem (texts l) rh it.hint) (h4 : ReadsO h0 h.mem (texts l) rp it.pet) :
    ∃ r l' h', Lists.addItem A l rt rv rh rp it.priv h = some ((r, l'), h') ∧ Added A h0 l v it extra r l' h' := by
  unfold Lists.addItem
  rcases ensure_ok hA i with ⟨g0, e0, m0, f0⟩ | ⟨l', g0, e0, i0, c0, t0, kd, k0⟩
  · refine ⟨_, l, g0, ?_, .noMemory f0 rfl (m0 ▸ i)⟩
    simp only [M.bind, e0, Option.bind_some, M.pure]
  have et := touch_ok (h := g0) (a := l'.arr) (i0.own.live _ (by simp [blocks])) c0
  obtain ⟨p1, g1, e1, o1, k1, t1⟩ := dup_ok hA (m := h.mem) i0.own k0 h1
  have s1 : ∀ x ∈ texts l, x ∈ blocks l' ++ extra := fun x hx => by simp [blocks, t0, hx]
  have kk1 : ∀ x ∈ texts l, g1.mem x = h.mem x := fun x hx => by rw [k1 x (s1 x hx), k0 x hx]
  obtain ⟨p2, g2, e2, o2, k2, t2⟩ := dup_ok hA (m := h.mem) o1 kk1 h2
  have kk2 : ∀ x ∈ texts l, g2.mem x = h.mem x := fun x hx => by rw [k2 x (List.mem_append_right _ (s1 x hx)), kk1 x hx]
  obtain ⟨p3, g3, e3, o3, k3, t3⟩ := dup_ok hA (m := h.mem) o2 kk2 h3
  have kk3 : ∀ x ∈ texts l, g3.mem x = h.mem x := fun x hx => by
    rw [k3 x (List.mem_append_right _ (List.mem_append_right _ (s1 x hx))), kk2 x hx]
  obtain ⟨p4, g4, e4, o4, k4, t4⟩ := dup_ok hA (m := h.mem) o3 kk3 h4
  have o5 : Owned h0 g4.mem (itemBlocks ⟨p1, p2, p3, p4, it.priv⟩ ++ (blocks l' ++ extra)) :=
    Owned.same_blocks o4 fun x => by simp only [itemBlocks, List.count_append]; omega
  have keep : ∀ x ∈ blocks l' ++ extra, g4.mem x = g0.mem x := fun x hx => by
    rw [k4 x (List.mem_append_right _ (List.mem_append_right _ (List.mem_append_right _ hx))), k3 x (List.mem_append_right _ (List.mem_append_right _ hx)),
      k2 x (List.mem_append_right _ hx), k1 x hx]
  have i4 : ∀ (g : Heap), (∀ x ∈ blocks l' ++ extra, g.mem x = g0.mem x) → Owned h0 g.mem (blocks l' ++ extra) → Inv h0 g.mem l' v extra :=
    fun g hg o => ⟨i0.holds.mono fun x hx => hg x (by simp [blocks, hx]), o, i0.room, i0.min, i0.max⟩
  have fail : (p1 = none ∨ p2 = none ∨ (rh.isSome ∧ p3 = none) ∨ (rp.isSome ∧ p4 = none)) → (v.items.length = 4096 ∨ Refused A h0) →
      ∃ r l'' h', M.bind (ensure A l) (fun r =>
        match r.1 with
        | some e => M.pure (some e, r.2)
        | none =>
          M.bind (touch r.2.arr r.2.items.length r.2.cap) fun _ =>
          M.bind (dup A rt) fun t => M.bind (dup A rv) fun v => M.bind (dup A rh) fun h => M.bind (dup A rp) fun p =>
          if t = none ∨ v = none ∨ (rh.isSome ∧ h = none) ∨ (rp.isSome ∧ p = none) then
            M.bind (freeItem ⟨t, v, h, p, it.priv⟩) fun _ => M.pure (some .memory, r.2)
          else M.pure (none, { r.2 with items := r.2.items ++ [⟨t, v, h, p, it.priv⟩] })) h = some ((r, l''), h') ∧ Added A h0 l v it extra r l'' h' := by
    intro hc hf
    obtain ⟨g5, e5, o6, k5⟩ := freeItem_ok o5
    refine ⟨some .memory, l', g5, ?_, .noMemory hf kd (i4 g5 (fun x hx => by rw [k5 x hx, keep x hx]) o6)⟩
    simp only [M.bind, e0, et, e1, e2, e3, e4, Option.bind_some, if_pos hc, e5, M.pure]
  have hc0 := i0.count
  have hmax := i0.max
  rcases t1 with t1 | ⟨n1, -, f1⟩
  rotate_left
  · exact fail (.inl n1) (.inr f1)
  rcases t2 with t2 | ⟨n2, -, f2⟩
  rotate_left
  · exact fail (.inr (.inl n2)) (.inr f2)
  rcases t3 with t3 | ⟨n3, m3, f3⟩
  rotate_left
  · exact fail (.inr (.inr (.inl ⟨by rw [h3.isSome]; cases hx : it.hint <;> simp_all, n3⟩))) (.inr f3)
  rcases t4 with t4 | ⟨n4, m4, f4⟩
  rotate_left
  · exact fail (.inr (.inr (.inr ⟨by rw [h4.isSome]; cases hx : it.pet <;> simp_all, n4⟩))) (.inr f4)
  have hc : ¬ (p1 = none ∨ p2 = none ∨ (rh.isSome ∧ p3 = none) ∨ (rp.isSome ∧ p4 = none)) := by
    rintro (rfl | rfl | ⟨hs, rfl⟩ | ⟨hs, rfl⟩)
    · obtain ⟨a, ha, -⟩ := t1.some_iff; simp at ha
    · obtain ⟨a, ha, -⟩ := t2.some_iff; simp at ha
    · rw [h3.isSome] at hs
      cases hx : it.hint with
      | none => simp [hx] at hs
      | some t => rw [hx] at t3; obtain ⟨a, ha, -⟩ := t3.some_iff; simp at ha
    · rw [h4.isSome] at hs
      cases hx : it.pet with
      | none => simp [hx] at hs
      | some t => rw [hx] at t4; obtain ⟨a, ha, -⟩ := t4.some_iff; simp at ha
  refine ⟨none, { l' with items := l'.items ++ [⟨p1, p2, p3, p4, it.priv⟩] }, g4, ?_, .added (by omega) kd ⟨⟨?_, ?_⟩, ?_, ?_, i0.min, i0.max⟩⟩
  · simp only [M.bind, e0, et, e1, e2, e3, e4, Option.bind_some, if_neg hc, M.pure]
  · have := i0.holds.mono (m' := g4.mem) fun x hx => keep x (by simp [blocks, hx])
    intro f
    have := this.field f
    cases f <;> exact this
  · have := (i0.holds.mono (m' := g4.mem) fun x hx => keep x (by simp [blocks, hx])).items
    refine this.append (.cons ⟨?_, ?_, ?_, t4, rfl⟩ .nil)
    · exact t1.mono fun a ha => by
        rw [k4 a (by simp only [List.mem_append]; exact .inr (.inr (.inl ha))), k3 a (by simp only [List.mem_append]; exact .inr (.inl ha)), k2 a (by simp only [List.mem_append]; exact .inl ha)]
    · exact t2.mono fun a ha => by
        rw [k4 a (by simp only [List.mem_append]; exact .inr (.inl ha)), k3 a (by simp only [List.mem_append]; exact .inl ha)]
    · exact t3.mono fun a ha => by rw [k4 a (by simp only [List.mem_append]; exact .inl ha)]
  · refine Owned.same_blocks o5 fun x => ?_
    simp only [blocks, texts, itemBlocks, List.flatMap_append, List.flatMap_cons, List.flatMap_nil, List.count_append, List.count_cons, List.cons_append, List.count_nil]
    omega
  · simp only [List.length_append, List.length_singleton]; omega

theorem remove_ok {h0 : Mem} {h : Heap} {l v extra} (i : Inv h0 h.mem l v extra) (n : Nat) :
    (v.items.length ≤ n ∧ Lists.remove l n h = some ((some .invalidParam, l), h)) ∨
    (n < v.items.length ∧ ∃ l' h', Lists.remove l n h = some ((none, l'), h') ∧
      Inv h0 h'.mem l' { v with items := v.items.take n ++ v.items.drop (n + 1) } extra) := by
  unfold Lists.remove
  rcases i.holds.items.at n with ⟨h1, h2⟩ | ⟨x, it, pre, post, ipre, ipost, h1, h2, h3, h4, h5, h6, h7, h8⟩
  · rw [h1]
    exact .inl ⟨by simpa using h2, rfl⟩
  · right
    rw [h1]
    have hlt : n < v.items.length := by rw [h5]; have := h7.length; simp; omega
    have hr := i.room
    have hc := i.count
    refine ⟨hlt, ?_⟩
    have e0 := touch_ok (h := h) (a := l.arr) (i := n) (n := l.cap) (i.own.live _ (by simp [blocks])) (by omega)
    have o : Owned h0 h.mem (itemBlocks x ++ (blocks { l with items := pre ++ post } ++ extra)) := by
      refine Owned.same_blocks i.own fun y => ?_
      simp only [blocks, texts, h4, List.flatMap_append, List.flatMap_cons, List.count_append, List.count_cons, List.cons_append]
      omega
    obtain ⟨g, e1, o1, k1⟩ := freeItem_ok o
    have her : l.items.eraseIdx n = pre ++ post := by
      rw [h4, ← h6, List.eraseIdx_append_of_length_le (by omega)]; simp
    have hv : v.items.take n ++ v.items.drop (n + 1) = ipre ++ ipost := by
      have : ipre.length = n := by rw [← h7.length]; exact h6
      subst this
      rw [h5]
      simp
    rw [hv]
    refine ⟨{ l with items := pre ++ post }, g, ?_, ⟨⟨?_, ?_⟩, o1, ?_, i.min, i.max⟩⟩
    · simp only [M.bind, e0, e1, her, Option.bind_some, M.pure]
    · intro f
      have hsub : ∀ a ∈ (l.field f).toList, a ∈ texts { l with items := pre ++ post } := fun a ha => by
        have := field_sub { l with items := pre ++ post } f a (by cases f <;> exact ha)
        exact this
      have := (i.holds.field f).mono (m' := g.mem) fun a ha => k1 a (by simp [blocks, hsub a ha])
      cases f <;> exact this
    · have hsub : ∀ a ∈ (pre ++ post).flatMap itemBlocks, a ∈ texts { l with items := pre ++ post } := fun a ha => by
        simp only [texts, List.mem_append]; exact .inr (.inr (.inr (.inr ha)))
      refine HoldsItems.append (h7.mono fun a ha => k1 a ?_) (h8.mono fun a ha => k1 a ?_)
      · simp [blocks, hsub a (by rw [List.flatMap_append]; exact List.mem_append_left _ ha)]
      · simp [blocks, hsub a (by rw [List.flatMap_append]; exact List.mem_append_right _ ha)]
    · rw [h4] at hr; simp only [List.length_append, List.length_cons] at hr ⊢; omega

/-! ### Calls -/

theorem src_tx {h0 : Mem} {h : Heap} {l v extra} (i : Inv h0 h.mem l v extra) {s : Src} (hs : Live h0 s) :
    Tx h.mem (s.ptr l) (text h0 v s) := by
  cases s with
  | null => exact .null
  | text p =>
    obtain ⟨t, ht⟩ := hs p rfl
    simp only [text, Src.ptr, ht]
    refine .str ?_
    rw [i.own.same p fun hm => by have := i.own.fresh p hm; rw [ht] at this; simp at this]
    exact ht
  | field f => exact i.holds.field f
  | item n w =>
    simp only [text, Src.ptr]
    rcases i.holds.items.at n with ⟨h1, h2⟩ | ⟨x, it, _, _, _, _, h1, h2, h3, _⟩
    · rw [h1, h2]; exact .null
    · rw [h1, h2]
      cases w
      · exact h3.type
      · exact h3.value
      · exact h3.hint
      · exact h3.pet

theorem src_reads {h0 : Mem} {h : Heap} {l v extra} (i : Inv h0 h.mem l v extra) {s : Src} (hs : Live h0 s) {keep : List Nat}
    (hk : (∀ p, s ≠ .text p) → ∀ a ∈ (s.ptr l).toList, a ∈ keep) :
    ReadsO h0 h.mem keep ((s.ptr l).map loadStr) (text h0 v s) := by
  have ht := src_tx i hs
  cases hx : text h0 v s with
  | none => rw [hx] at ht; rw [ht.none_iff]; exact .null
  | some t =>
    rw [hx] at ht
    obtain ⟨a, ha, hm⟩ := ht.some_iff
    rw [ha]
    refine .text fun h' own o hkeep => ?_
    have : h'.mem a = some (.str t) := by
      by_cases hp : ∃ p, s = .text p
      · obtain ⟨p, rfl⟩ := hp
        obtain ⟨t', ht'⟩ := hs p rfl
        simp only [Src.ptr, Option.some.injEq] at ha
        subst ha
        rw [o.same p fun hm => by have := o.fresh p hm; rw [ht'] at this; simp at this]
        simp only [text, ht', Option.some.injEq] at hx
        rw [ht', hx]
      · rw [hkeep a (hk (fun p hp' => hp ⟨p, hp'⟩) a (by simp [ha]))]; exact hm
    simp only [loadStr, this]

theorem item_sub {l : HList} {n : Nat} {x : HItem} (hx : l.items[n]? = some x) (w : Part) : ∀ a ∈ (x.part w).toList, a ∈ l.items.flatMap itemBlocks := by
  intro a ha
  refine List.mem_flatMap.2 ⟨x, List.mem_of_getElem? hx, ?_⟩
  cases w <;> simp only [HItem.part] at ha <;> simp only [itemBlocks, List.mem_append] <;> simp only [ha, true_or, or_true]

theorem src_texts (l : HList) {s : Src} (hs : ∀ p, s ≠ .text p) : ∀ a ∈ (s.ptr l).toList, a ∈ texts l := by
  intro a ha
  cases s with
  | null => simp [Src.ptr] at ha
  | text p => exact absurd rfl (hs p)
  | field f => exact field_sub l f a ha
  | item n w =>
    simp only [Src.ptr] at ha
    cases hx : l.items[n]? with
    | none => rw [hx] at ha; simp at ha
    | some x =>
      rw [hx] at ha
      have := item_sub hx w a ha
      simp only [texts, List.mem_append]; exact .inr (.inr (.inr (.inr this)))

theorem src_others (l : HList) (f : Field) {s : Src} (hf : s ≠ .field f) (hs : ∀ p, s ≠ .text p) : ∀ a ∈ (s.ptr l).toList, a ∈ others l f := by
  have h : s.ptr (l.setField f none) = s.ptr l := by
    cases s with
    | null => rfl
    | text p => rfl
    | field g => cases f <;> cases g <;> first | exact absurd rfl hf | rfl
    | item n w => cases f <;> rfl
  rw [← h]
  exact src_texts _ hs

theorem look_ok {h : Heap} {p o} (ht : Tx h.mem p o) : look p h = some (o, h) := by
  cases o with
  | none => rw [ht.none_iff]; rfl
  | some t =>
    obtain ⟨a, rfl, hm⟩ := ht.some_iff
    simp only [look, M.bind, loadStr, hm, Option.bind_some, M.pure]

theorem later_ok {h0 : Mem} {h : Heap} {l v extra} (i : Inv h0 h.mem l v extra) {s : Src} (hs : Live h0 s) {o : Option Bytes}
    (ho : o = none ∨ o = text h0 v s) : ReadsO h0 h.mem (texts l) (later o (s.ptr l)) o := by
  cases o with
  | none => exact .null
  | some t =>
    have ho : text h0 v s = some t := by rcases ho with ho | ho; cases ho; exact ho.symm
    have := src_reads i hs (keep := texts l) fun hp => src_texts l hp
    rw [ho] at this
    cases hp : s.ptr l with
    | none => rw [hp] at this; cases this
    | some p => rw [hp] at this; exact this

theorem args_made {w : Which} {ta tb tc : Option Bytes} {x : Add} (h : w.args ta tb tc = some x) (priv : Bool) :
    ta = some (made x priv).value ∧ ((made x priv).hint = none ∨ (made x priv).hint = tb) ∧
      ((made x priv).pet = none ∨ (made x priv).pet = tc) ∧ (made x priv).priv = priv := by
  cases w <;> cases ta <;> cases tb <;> simp only [Which.args, Option.some.injEq, reduceCtorEq] at h <;> subst h <;> simp [made]

theorem call_ok {A : Alloc} (hA : Fresh A) {h0 : Mem} {h : Heap} {l v extra} (i : Inv h0 h.mem l v extra) {c : Call} (hc : Sound h0 c) :
    ∃ r l' h' v', call A l c h = some ((r, l'), h') ∧ Did A h0 v c r v' ∧ Inv h0 h'.mem l' v' extra := by
  cases c with
  | set f s =>
    obtain ⟨r, l', h', o', e1, i1, -, hr⟩ := set_ok hA i f (src_reads i hc.1 (keep := others l f) fun hp => src_others l f hc.2 hp)
    refine ⟨r, l', h', _, e1, ?_, i1⟩
    rcases hr with ⟨rfl, rfl⟩ | ⟨rfl, rfl, h1, h2⟩
    · exact .set
    · exact .lost h1 h2
  | remove n =>
    rcases remove_ok i n with ⟨h1, e1⟩ | ⟨h1, l', h', e1, i1⟩
    · exact ⟨_, _, _, v, e1, .noIndex h1, i⟩
    · exact ⟨_, _, _, _, e1, .removed h1, i1⟩
  | add w a b c priv =>
    obtain ⟨ha, hb, hc⟩ := hc
    have e1 := look_ok (src_tx i ha)
    have e2 := look_ok (src_tx i hb)
    have e3 := look_ok (src_tx i hc)
    cases hx : w.args (text h0 v a) (text h0 v b) (text h0 v c) with
    | none =>
      refine ⟨some .invalidParam, l, h, v, ?_, .invalid fun x hx' => by rw [hx] at hx'; simp at hx', i⟩
      simp only [call, M.bind, e1, e2, e3, hx, Option.bind_some, Option.bind_none, M.pure]
    | some x =>
      rcases item_iff x priv with ⟨hv, hi⟩ | ⟨hv, hi⟩
      · obtain ⟨m1, m2, m3, m4⟩ := args_made hx priv
        have r2 := src_reads i ha (keep := texts l) fun hp => src_texts l hp
        rw [m1] at r2
        obtain ⟨r, l', h', e4, ad⟩ := addItem_ok hA i (made x priv) (ReadsO.pure (some (made x priv).type)) r2 (later_ok i hb m2) (later_ok i hc m3)
        rw [m4] at e4
        have e5 : call A l (.add w a b c priv) h = some ((r, l'), h') := by
          simp only [call, M.bind, e1, e2, e3, hx, hi, Option.bind_some]
          exact e4
        cases ad with
        | noMemory hm _ i1 => exact ⟨_, _, _, v, e5, .noRoom hx hv hm, i1⟩
        | added hs _ i1 => exact ⟨_, _, _, _, e5, .added hx hv hs, i1⟩
      · refine ⟨some .invalidParam, l, h, v, ?_, .invalid fun y hy => by rw [hx] at hy; cases hy; exact hv, i⟩
        simp only [call, M.bind, e1, e2, e3, hx, hi, Option.bind_some, M.pure]

theorem calls_ok {A : Alloc} (hA : Fresh A) {h0 : Mem} : ∀ (cs : List Call) {h : Heap} {l v extra}, Inv h0 h.mem l v extra →
    (∀ c ∈ cs, Sound h0 c) →
    ∃ rs l' h' v', calls A l cs h = some ((rs, l'), h') ∧ Went A h0 v cs rs v' ∧ Inv h0 h'.mem l' v' extra := by
  intro cs
  induction cs with
  | nil => intro h l v extra i _; exact ⟨[], l, h, v, rfl, .nil, i⟩
  | cons c cs ih =>
    intro h l v extra i hc
    obtain ⟨r, l1, h1, v1, e1, d1, i1⟩ := call_ok hA i (hc c (by simp))
    obtain ⟨rs, l2, h2, v2, e2, d2, i2⟩ := ih i1 fun c hm => hc c (by simp [hm])
    refine ⟨r :: rs, l2, h2, v2, ?_, .cons d1 d2, i2⟩
    simp only [calls, M.bind, e1, e2, Option.bind_some, M.pure]

/-! ### Reading -/

/-- The values, as the list of the value model. -/
structure Match (kind : Nat) (w : Lst) (v : Val) : Prop where
  kind : kind = w.kind
  d : v.d = w.d
  title : v.title = w.title
  descr : v.descr = w.descr
  image : v.image = w.image
  items : Rep w v.items

/-- A part of the reading comes to what the value model says, or memory ran out. -/
def Reading (A : Alloc) (h0 : Mem) (extra : List Nat) (val : Res Lst) (m : M (Option Err × HList)) (h : Heap) : Prop :=
  ∃ r l h', m h = some ((r, l), h') ∧
    ((r = none ∧ ∃ v w, val = .ok w ∧ Inv h0 h'.mem l v extra ∧ Match l.kind w v) ∨
     ∃ x v, r = some x ∧ Inv h0 h'.mem l v extra ∧ (val = .err x ∨ (x = .memory ∧ Refused A h0)))

theorem item_reading {A : Alloc} (hA : Fresh A) {h0 : Mem} {h : Heap} {l v extra w} (i : Inv h0 h.mem l v extra) (mt : Match l.kind w v) (it : Item) :
    Reading A h0 extra (Nip51.addItem true true w it >>= fun q => match q.2 with | some e => .err e | none => .ok q.1)
      (Lists.addItem A l (some (M.pure it.type)) (some (M.pure it.value)) (it.hint.map M.pure) (it.pet.map M.pure) it.priv) h := by
  obtain ⟨r, l', h', e1, ad⟩ := addItem_ok hA i it (ReadsO.pure (some it.type)) (ReadsO.pure (some it.value)) (ReadsO.pure it.hint) (ReadsO.pure it.pet)
  refine ⟨r, l', h', e1, ?_⟩
  cases ad with
  | noMemory hm hk i1 =>
    refine .inr ⟨_, v, rfl, i1, ?_⟩
    rcases hm with hm | hm
    · rcases addItem_spec true true it mt.items with ⟨hs, -⟩ | ⟨-, w1, e2, -⟩
      · omega
      · left; rw [e2]; rfl
    · exact .inr ⟨rfl, hm⟩
  | added hs hk i1 =>
    obtain ⟨w1, e2, r2, s2⟩ := Nip51.addItem_ok it mt.items hs
    refine .inl ⟨rfl, _, w1, by rw [e2]; rfl, i1, ?_⟩
    obtain ⟨s1, s2, s3, s4, s5⟩ := s2
    exact ⟨by rw [hk, mt.kind, s1], by rw [s2]; exact mt.d, by rw [s3]; exact mt.title, by rw [s4]; exact mt.descr, by rw [s5]; exact mt.image, r2⟩

theorem set_reading {A : Alloc} (hA : Fresh A) {h0 : Mem} {h : Heap} {l v extra} (i : Inv h0 h.mem l v extra) (f : Field) (t : Bytes)
    {w' : Lst} (mt : ∀ k, k = l.kind → Match k w' (v.setField f (some t))) :
    Reading A h0 extra (.ok w') (set A l f (some (M.pure t))) h := by
  obtain ⟨r, l', h', o', e1, i1, hk, hr⟩ := set_ok hA i f (ReadsO.pure (some t))
  refine ⟨r, l', h', e1, ?_⟩
  rcases hr with ⟨rfl, rfl⟩ | ⟨rfl, rfl, h1, h2⟩
  · exact .inl ⟨rfl, _, _, rfl, i1, mt _ hk⟩
  · exact .inr ⟨_, _, rfl, i1, .inr ⟨rfl, h2⟩⟩

theorem tag_reading {A : Alloc} (hA : Fresh A) {h0 : Mem} {h : Heap} {l v extra w} (i : Inv h0 h.mem l v extra) (mt : Match l.kind w v) (t : List Bytes) :
    Reading A h0 extra (Nip51.readTag w t) (Lists.readTag A l t) h := by
  have stay : Reading A h0 extra (.ok w) (M.pure (none, l)) h := ⟨none, l, h, rfl, .inl ⟨rfl, v, w, rfl, i, mt⟩⟩
  match t with
  | [] => exact stay
  | [_] => exact stay
  | n :: y :: r =>
    unfold Nip51.readTag Lists.readTag
    simp only
    by_cases h1 : n = c!"d"
    · rw [if_pos h1, if_pos h1]
      exact set_reading hA i .d y fun k hk => ⟨hk.trans mt.kind, rfl, mt.title, mt.descr, mt.image, mt.items⟩
    rw [if_neg h1, if_neg h1]
    by_cases h2 : n = c!"title"
    · rw [if_pos h2, if_pos h2]
      exact set_reading hA i .title y fun k hk => ⟨hk.trans mt.kind, mt.d, rfl, mt.descr, mt.image, mt.items⟩
    rw [if_neg h2, if_neg h2]
    by_cases h3 : n = c!"description"
    · rw [if_pos h3, if_pos h3]
      exact set_reading hA i .descr y fun k hk => ⟨hk.trans mt.kind, mt.d, mt.title, rfl, mt.image, mt.items⟩
    rw [if_neg h3, if_neg h3]
    by_cases h4 : n = c!"image"
    · rw [if_pos h4, if_pos h4]
      exact set_reading hA i .image y fun k hk => ⟨hk.trans mt.kind, mt.d, mt.title, mt.descr, rfl, mt.items⟩
    rw [if_neg h4, if_neg h4]
    exact item_reading hA i mt ⟨n, y, r.head?, (r.drop 1).head?, false⟩

theorem tags_reading {A : Alloc} (hA : Fresh A) {h0 : Mem} {extra} : ∀ (ts : List (List Bytes)) {h : Heap} {l v w}, Inv h0 h.mem l v extra → Match l.kind w v →
    Reading A h0 extra (Nip51.readTags w ts) (Lists.readTags A l ts) h := by
  intro ts
  induction ts with
  | nil => intro h l v w i mt; exact ⟨none, l, h, rfl, .inl ⟨rfl, v, w, rfl, i, mt⟩⟩
  | cons t ts ih =>
    intro h l v w i mt
    obtain ⟨r, l1, h1, e1, hr⟩ := tag_reading hA i mt t
    rcases hr with ⟨rfl, v1, w1, e2, i1, m1⟩ | ⟨x, v1, rfl, i1, hx⟩
    · obtain ⟨r, l2, h2, e3, hr⟩ := ih i1 m1
      refine ⟨r, l2, h2, ?_, ?_⟩
      · simp only [Lists.readTags, M.bind, e1, e3, Option.bind_some]
      · simp only [Nip51.readTags, e2, Res.bind_ok]; exact hr
    · refine ⟨some x, l1, h1, ?_, .inr ⟨x, v1, rfl, i1, ?_⟩⟩
      · simp only [Lists.readTags, M.bind, e1, Option.bind_some, M.pure]
      · rcases hx with hx | hx
        · left; simp only [Nip51.readTags, hx, Res.bind_err]
        · exact .inr hx

theorem items_reading {A : Alloc} (hA : Fresh A) {h0 : Mem} {extra} : ∀ (fuel : Nat) (p : Bytes) {h : Heap} {l v w}, Inv h0 h.mem l v extra → Match l.kind w v →
    Reading A h0 extra (Nip51.parseItems fuel w p) (Lists.parseItems A fuel l p) h := by
  intro fuel
  induction fuel with
  | zero => intro p h l v w i mt; exact ⟨_, l, h, rfl, .inr ⟨_, v, rfl, i, .inl rfl⟩⟩
  | succ fuel ih =>
    intro p h l v w i mt
    have bad : Reading A h0 extra (.err .jsonParse) (M.pure (some .jsonParse, l)) h := ⟨_, l, h, rfl, .inr ⟨_, v, rfl, i, .inl rfl⟩⟩
    have stay : Reading A h0 extra (.ok w) (M.pure (none, l)) h := ⟨none, l, h, rfl, .inl ⟨rfl, v, w, rfl, i, mt⟩⟩
    unfold Nip51.parseItems Lists.parseItems
    by_cases hp : p = []
    · rw [if_pos hp, if_pos hp]; exact stay
    rw [if_neg hp, if_neg hp]
    cases skipWs p with
    | nil => exact bad
    | cons c r =>
      simp only
      by_cases hc : c = 0x5d
      · rw [if_pos hc, if_pos hc]; exact stay
      rw [if_neg hc, if_neg hc]
      by_cases hc : c ≠ 0x5b
      · rw [if_pos hc, if_pos hc]; exact bad
      rw [if_neg hc, if_neg hc]
      cases fields (r.length + 1) 0 [] r with
      | none => exact bad
      | some q =>
        obtain ⟨fs, r1⟩ := q
        simp only
        cases fromFields fs with
        | none => exact ih _ i mt
        | some it =>
          obtain ⟨r, l1, h1, e1, hr⟩ := item_reading hA i mt it
          simp only
          rcases hr with ⟨rfl, v1, w1, e2, i1, m1⟩ | ⟨x, v1, rfl, i1, hx⟩
          · obtain ⟨q, e3, e4⟩ := Res.bind_eq_ok.1 e2
            obtain ⟨q1, q2⟩ := q
            cases q2 with
            | some e => simp at e4
            | none =>
              simp only [Res.ok.injEq] at e4
              subst e4
              obtain ⟨r, l2, h2, e5, hr⟩ := ih (if r1.head? = some 0x5d then r1.drop 1 else r1) i1 m1
              refine ⟨r, l2, h2, ?_, ?_⟩
              · simp only [M.bind, e1, Option.bind_some]; exact e5
              · simp only [e3, Res.bind_ok]; exact hr
          · refine ⟨some x, l1, h1, ?_, .inr ⟨x, v1, rfl, i1, ?_⟩⟩
            · simp only [M.bind, e1, Option.bind_some, M.pure]
            · rcases hx with hx | hx
              · left
                cases ha : Nip51.addItem true true w it with
                | ub => rw [ha] at hx; simp at hx
                | err y => rw [ha] at hx; simpa using hx
                | ok q =>
                  obtain ⟨q1, q2⟩ := q
                  rw [ha] at hx
                  cases q2 with
                  | some e => simpa using hx
                  | none => simp at hx
              · exact .inr hx

theorem private_reading {A : Alloc} (hA : Fresh A) {h0 : Mem} {extra} (json : Bytes) {h : Heap} {l v w} (i : Inv h0 h.mem l v extra) (mt : Match l.kind w v) :
    Reading A h0 extra (Nip51.parsePrivate w json) (Lists.parsePrivate A l json) h := by
  unfold Nip51.parsePrivate Lists.parsePrivate
  by_cases hl : json.length < 2
  · rw [if_pos hl, if_pos hl]
    exact ⟨none, l, h, rfl, .inl ⟨rfl, v, w, rfl, i, mt⟩⟩
  rw [if_neg hl, if_neg hl]
  cases json.dropWhile (· ≠ 0x5b) with
  | nil => exact ⟨_, l, h, rfl, .inr ⟨_, v, rfl, i, .inl rfl⟩⟩
  | cons _ r => exact items_reading hA _ _ i mt

/-- The value model of `readContent`. -/
def content (N : Nip44.Nc) (B : Nip44.B64) (cfg : Option Config.Config) (keys : Option Keys) (e : Event.Event) (l : Lst) : Res Lst :=
  match keys with
  | none => .ok l
  | some k => if e.text = [] then .ok l
      else Nip44.decrypt N B cfg k.sk k.pk e.text >>= fun t => Nip51.parsePrivate l (t.takeWhile (· ≠ 0))

theorem content_reading {A : Alloc} (hA : Fresh A) {h0 : Mem} {h : Heap} {l v w} (N : Nip44.Nc) (B : Nip44.B64) (cfg : Option Config.Config)
    (keys : Option Keys) (e : Event.Event) (i : Inv h0 h.mem l v []) (mt : Match l.kind w v) (hu : content N B cfg keys e w ≠ .ub) :
    Reading A h0 [] (content N B cfg keys e w) (readContent A N B cfg keys e l) h := by
  have stay : Reading A h0 [] (.ok w) (M.pure (none, l)) h := ⟨none, l, h, rfl, .inl ⟨rfl, v, w, rfl, i, mt⟩⟩
  unfold content at hu ⊢
  unfold readContent
  cases keys with
  | none => exact stay
  | some k =>
    simp only at hu ⊢
    by_cases ht : e.text = []
    · rw [if_pos ht, if_pos ht]; exact stay
    rw [if_neg ht] at hu
    rw [if_neg ht, if_neg ht]
    cases hd : Nip44.decrypt N B cfg k.sk k.pk e.text with
    | ub => rw [hd] at hu; exact absurd rfl hu
    | err x => exact ⟨some x, l, h, rfl, .inr ⟨x, v, rfl, i, .inl rfl⟩⟩
    | ok t =>
      simp only [Res.bind_ok]
      have o : Owned h0 h.mem (blocks l) := by simpa using i.own
      rcases allocP hA o (.str t) with ⟨h1, e1, m1, f1⟩ | ⟨c, h1, e1, v1, o1, k1⟩
      · refine ⟨some .memory, l, h1, ?_, .inr ⟨_, v, rfl, m1 ▸ i, .inr ⟨rfl, f1⟩⟩⟩
        simp only [M.bind, e1, Option.bind_some, M.pure]
      · have i1 : Inv h0 h1.mem l v [c] := ⟨i.holds.mono fun x hx => k1 x (by simp [blocks, hx]), o1.perm (List.perm_append_singleton c _).symm, i.room, i.min, i.max⟩
        obtain ⟨r, l2, h2, e2, hr⟩ := private_reading hA (t.takeWhile (· ≠ 0)) i1 mt
        have key : ∀ v2, Inv h0 h2.mem l2 v2 [c] → ∃ h3, free (some c) h2 = some ((), h3) ∧ Inv h0 h3.mem l2 v2 [] := by
          intro v2 i2
          obtain ⟨h3, e3, o3, k3⟩ := freeP (p := some c) (b := blocks l2) (i2.own.perm (List.perm_append_singleton c _))
          exact ⟨h3, e3, ⟨i2.holds.mono fun x hx => k3 x (by simp [blocks, hx]), by simpa using o3, i2.room, i2.min, i2.max⟩⟩
        rcases hr with ⟨rfl, v2, w2, e4, i2, m2⟩ | ⟨x, v2, rfl, i2, hx⟩
        · obtain ⟨h3, e3, i3⟩ := key v2 i2
          exact ⟨none, l2, h3, by simp only [M.bind, e1, e2, e3, Option.bind_some, M.pure], .inl ⟨rfl, v2, w2, e4, i3, m2⟩⟩
        · obtain ⟨h3, e3, i3⟩ := key v2 i2
          exact ⟨some x, l2, h3, by simp only [M.bind, e1, e2, e3, Option.bind_some, M.pure], .inr ⟨x, v2, rfl, i3, hx⟩⟩

/-! ## C153 -/

/-- C153: a program creates a list, sets its texts, adds and removes items in any order — with texts of its own or with
texts that belong to the list — and memory may run out at any allocation. Creating the list fails only if memory ran
out, and then leaves nothing behind. Otherwise no call touches memory that is not live; each call does and returns what the
values demand; lack of memory is reported only if there was such or the list is full; the list consists of
exactly its own blocks, and freeing it gives back the memory as it was. Missing: setting a text of the list to itself
(`C153_itself_refuted`). -/
theorem C153_history_partial {A : Alloc} (hA : Fresh A) (kind : Nat) (h : Heap) {cs : List Call} (hc : ∀ c ∈ cs, Sound h.mem c) :
    (∃ h', create A kind h = some (none, h') ∧ h'.mem = h.mem ∧ Refused A h.mem) ∨
    ∃ l h1 rs l' h2 v h3, create A kind h = some (some l, h1) ∧ Has h.mem h1.mem l {} ∧
      calls A l cs h1 = some ((rs, l'), h2) ∧ Went A h.mem {} cs rs v ∧ Has h.mem h2.mem l' v ∧
      destroy l' h2 = some ((), h3) ∧ h3.mem = h.mem := by
  rcases create_ok hA kind h with h1 | ⟨l, h1, e1, i1, -⟩
  · exact .inl h1
  · obtain ⟨rs, l', h2, v, e2, w2, i2⟩ := calls_ok hA cs i1 hc
    obtain ⟨h3, e3, o3⟩ := destroy_ok i2
    exact .inr ⟨l, h1, rs, l', h2, v, h3, e1, i1.has, e2, w2, i2.has, e3, o3.eq⟩

/-- C153 fails: setting a text of the list to the text it has already reads memory that has just been released,
for every list, text and allocator. -/
theorem C153_itself_refuted {A : Alloc} {h0 : Mem} {h : Heap} {l : HList} {v : Val} (i : Has h0 h.mem l v) {f : Field} (hf : v.field f ≠ none) :
    call A l (.set f (.field f)) h = none := by
  have ht := i.1.field f
  cases hx : v.field f with
  | none => exact absurd hx hf
  | some t =>
    rw [hx] at ht
    obtain ⟨a, ha, hm⟩ := ht.some_iff
    have e1 : free (some a) h = some ((), ⟨upd h.mem a none, h.tick⟩) := by
      simp only [free, hm, Option.isSome_some, if_true]
    simp only [call, set, Src.ptr, ha, Option.map_some, M.bind, e1, Option.bind_some, dup, loadStr, upd_same, Option.bind_none]

/-! ## C154 -/

/-- C154: reading a list from any event, with or without keys. A list that is handed out consists of its own blocks,
holds exactly what the event says, and freeing it gives back the memory as it was; every failure leaves nothing
behind, and lack of memory is reported only if there was such or the event has too many items. -/
theorem C154_from_event {A : Alloc} (hA : Fresh A) (N : Nip44.Nc) (B : Nip44.B64) {cfg : Option Config.Config} (hcfg : Nip44.Spec.CfgOK cfg)
    (keys : Option Keys) (e : Event.Event) (h : Heap) :
    (∃ x h', fromEvent A N B cfg keys e h = some ((some x, none), h') ∧ h'.mem = h.mem ∧
      (Nip51.fromEvent N B cfg keys e = .err x ∨ (x = .memory ∧ Refused A h.mem))) ∨
    ∃ l h' w h'', fromEvent A N B cfg keys e h = some ((none, some l), h') ∧ Nip51.fromEvent N B cfg keys e = .ok w ∧
      Has h.mem h'.mem l ⟨w.d, w.title, w.descr, w.image, w.items⟩ ∧ l.kind = w.kind ∧
      destroy l h' = some ((), h'') ∧ h''.mem = h.mem := by
  have hu := (Nip51.Props.C104_read_any N B hcfg keys e).1
  rcases create_ok hA e.kind h with ⟨h1, e1, m1, f1⟩ | ⟨l, h1, e1, i1, hk⟩
  · refine .inl ⟨.memory, h1, ?_, m1, .inr ⟨rfl, f1⟩⟩
    simp only [fromEvent, M.bind, e1, Option.bind_some, M.pure]
  have mt : Match l.kind (Nip51.create e.kind) {} := ⟨hk, rfl, rfl, rfl, rfl, rep_create _⟩
  obtain ⟨r, l2, h2, e2, hr⟩ := tags_reading hA e.tags i1 mt
  have hval : Nip51.fromEvent N B cfg keys e = Nip51.readTags (Nip51.create e.kind) e.tags >>= content N B cfg keys e := rfl
  rcases hr with ⟨rfl, v2, w2, e3, i2, m2⟩ | ⟨x, v2, rfl, i2, hx⟩
  · rw [hval, e3, Res.bind_ok] at hu
    obtain ⟨r, l3, h3, e4, hr⟩ := content_reading hA N B cfg keys e i2 m2 hu
    rcases hr with ⟨rfl, v3, w3, e5, i3, m3⟩ | ⟨x, v3, rfl, i3, hx⟩
    · obtain ⟨h4, e6, o6⟩ := destroy_ok i3
      refine .inr ⟨l3, h3, w3, h4, ?_, by rw [hval, e3, Res.bind_ok, e5], ?_, m3.kind, e6, o6.eq⟩
      · simp only [fromEvent, M.bind, e1, e2, e4, finish, Option.bind_some, M.pure]
      · have : v3 = ⟨w3.d, w3.title, w3.descr, w3.image, w3.items⟩ := by
          rw [rep_items m3.items, ← m3.d, ← m3.title, ← m3.descr, ← m3.image]
        rw [← this]; exact i3.has
    · obtain ⟨h4, e6, o6⟩ := destroy_ok i3
      refine .inl ⟨x, h4, ?_, o6.eq, ?_⟩
      · simp only [fromEvent, M.bind, e1, e2, e4, finish, e6, Option.bind_some, M.pure]
      · rw [hval, e3, Res.bind_ok]; exact hx
  · obtain ⟨h4, e6, o6⟩ := destroy_ok i2
    refine .inl ⟨x, h4, ?_, o6.eq, ?_⟩
    · simp only [fromEvent, M.bind, e1, e2, finish, e6, Option.bind_some, M.pure]
    · rcases hx with hx | hx
      · left; rw [hval, hx, Res.bind_err]
      · exact .inr hx

/-! ## Cases -/

/-- Memory with two texts of the caller at 1000 and 1001. -/
def start : Heap := ⟨fun a => if a = 1000 then some (.str c!"spam") else if a = 1001 then some (.str c!"wss://r") else none, 0⟩

/-- Addresses one after the other; the allocations from `k` on fail. -/
def upTo (k : Nat) : Alloc := fun m n => if n < k ∧ m n = none then some n else none

/-- The statuses of some calls and whether the memory is as before in the end. -/
def outcome (k : Nat) (cs : List Call) : Option (List (Option Err) × Bool) :=
  match create (upTo k) 30000 start with
  | some (some l, h1) => match calls (upTo k) l cs h1 with
    | some ((rs, l'), h2) => match destroy l' h2 with
      | some (_, h3) => some (rs, (List.range 20).all fun a => (h3.mem a).isNone)
      | none => none
    | none => none
  | _ => none

/-- A program: title, a word, a group named like the title with the word's text, the word removed, title like the group's name. -/
def prog : List Call :=
  [.set .title (.text 1000), .add .word (.text 1000) .null .null true, .add .group (.item 0 .value) (.text 1001) (.field .title) false,
    .remove 0, .set .title (.item 0 .pet), .add .emoji (.text 1000) .null .null false, .remove 7]

example : ∀ c ∈ prog, Sound start.mem c := by
  have h1 : Live start.mem (.text 1000) := by intro p hp; cases hp; exact ⟨_, rfl⟩
  have h2 : Live start.mem (.text 1001) := by intro p hp; cases hp; exact ⟨_, rfl⟩
  have h3 : ∀ s, (∀ p, s ≠ .text p) → Live start.mem s := fun s hs p hp => absurd hp (hs p)
  intro c hc
  simp only [prog, List.mem_cons, List.not_mem_nil, or_false] at hc
  rcases hc with rfl | rfl | rfl | rfl | rfl | rfl | rfl
  · exact ⟨h1, by simp⟩
  · exact ⟨h1, h3 _ (by simp), h3 _ (by simp)⟩
  · exact ⟨h3 _ (by simp), h2, h3 _ (by simp)⟩
  · trivial
  · exact ⟨h3 _ (by simp), by simp⟩
  · exact ⟨h1, h3 _ (by simp), h3 _ (by simp)⟩
  · trivial

example : outcome 20 prog = some ([none, none, none, none, none, some .invalidParam, some .invalidParam], true) := by decide +kernel

example : outcome 7 prog = some ([none, none, some .memory, none, none, some .invalidParam, some .invalidParam], true) := by decide +kernel

example : outcome 20 [.set .title (.text 1000), .set .title (.field .title)] = none := by decide +kernel

/-- An event with a title and an item. -/
def sample : Event.Event := { Event.zero with kind := 30000, tags := [[c!"title", c!"T"], [c!"p", c!"x", c!"hint"], [c!"title", c!"U"]] }

/-- Whether reading it hands out a list with one item, and whether freeing that list releases everything. -/
def readBack (k : Nat) : Option (Option Err × Nat × Bool) :=
  match fromEvent (upTo k) ⟨fun _ _ => none, fun _ _ => [], fun _ _ _ => [], fun _ _ => []⟩ ⟨fun _ => [], fun _ => none⟩ none none sample start with
  | some ((r, some l), h1) => match destroy l h1 with
    | some (_, h2) => some (r, l.items.length, (List.range 20).all fun a => (h2.mem a).isNone)
    | none => none
  | some ((r, none), h1) => some (r, 0, (List.range 20).all fun a => (h1.mem a).isNone)
  | none => none

example : readBack 20 = some (none, 1, true) := by decide +kernel

example : readBack 5 = some (some .memory, 0, true) := by decide +kernel

end Nostr.Own.Lists.Props
