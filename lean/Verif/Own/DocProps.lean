import Verif.Own.Basic
import Verif.Own.Doc
import Verif.Own.DelegProps

/-! # Property theorems: memory of a relay information document (C158) -/

namespace Nostr.Own.Doc.Props
open Nostr Nostr.Heap Nostr.Own Nostr.Own.Doc Nostr.Own.Deleg.Props

/-! ## Specification -/

/-- A fee: the blocks of its unit and its kinds. -/
structure Fee where
  unit : Option Nat
  kinds : Option Nat

/-- The arrays that the caller attached to a document: the pointers in them. -/
structure Att where
  retention : List (Option Nat) := []
  admission : List Fee := []
  subscription : List Fee := []
  publication : List Fee := []

/-- The pointers in an array of fees. -/
def slots (fs : List Fee) : List (Option Nat) := fs.flatMap fun f => [f.unit, f.kinds]

/-- The pointer is NULL and there is nothing, or it is the array of the pointers `l`. -/
def Slots (m : Mem) (p : Option Nat) (l : List (Option Nat)) : Prop :=
  (p = none ∧ l = []) ∨ ∃ a, p = some a ∧ m a = some (.ptrs l)

/-- The document has these arrays. -/
structure Holds (m : Mem) (d : HDoc) (t : Att) : Prop where
  retention : Slots m d.retention t.retention ∧ d.retentionCount = t.retention.length
  admission : Slots m d.admission (slots t.admission) ∧ d.admissionCount = t.admission.length
  subscription : Slots m d.subscription (slots t.subscription) ∧ d.subscriptionCount = t.subscription.length
  publication : Slots m d.publication (slots t.publication) ∧ d.publicationCount = t.publication.length

/-- All that the caller attached, as blocks. -/
def attached (d : HDoc) (t : Att) : List Nat :=
  t.retention.flatMap Option.toList ++ d.retention.toList ++
  ((slots t.admission).flatMap Option.toList ++ d.admission.toList) ++
  ((slots t.subscription).flatMap Option.toList ++ d.subscription.toList) ++
  ((slots t.publication).flatMap Option.toList ++ d.publication.toList) ++
  d.countries.toList ++ d.languages.toList ++ d.tags.toList

/-- Compared with `h0`, the memory has exactly the attached blocks and the list of NIPs more. -/
structure Has (h0 m : Mem) (d : HDoc) (t : Att) (l : List Int) : Prop where
  holds : Holds m d t
  nips : Ints m d.nips d.count l
  own : Owned h0 m (d.nips.toList ++ attached d t)

/-- Admission and subscription fees carry no kinds. -/
def Plain (t : Att) : Prop := (∀ f ∈ t.admission, f.kinds = none) ∧ ∀ f ∈ t.subscription, f.kinds = none

/-- The caller passes NULL or a live array of their own, with at least as many numbers as they say. -/
def Call.Sound (m : Mem) : Call → Prop
  | .set (some p) n => ∃ l, m p = some (.ints l) ∧ n ≤ l.length
  | _ => True

/-- The numbers that a call sets. -/
def given (m : Mem) (src : Option Nat) (n : Nat) : List Int :=
  match src with
  | none => []
  | some p => match m p with
    | some (.ints l) => l.take n
    | _ => []

/-- What one call may do to the list of NIPs, and what it returns. -/
inductive Did (A : Alloc) (h0 : Mem) : List Int → Call → Option RelayErr → List Int → Prop
  | set {l src n} : Did A h0 l (.set src n) none (given h0 src n)
  | lost {l src n} (hg : given h0 src n ≠ []) (hm : Refused A h0) : Did A h0 l (.set src n) (some .memory) []
  | added {l k} : Did A h0 l (.add k) none (l ++ [k])
  | full {l k} (hm : Refused A h0) : Did A h0 l (.add k) (some .memory) l

/-- What a sequence of calls may do. -/
inductive Went (A : Alloc) (h0 : Mem) : List Int → List Call → List (Option RelayErr) → List Int → Prop
  | nil {l} : Went A h0 l [] [] l
  | cons {l l1 l2 c cs r rs} (h : Did A h0 l c r l1) (t : Went A h0 l1 cs rs l2) : Went A h0 l (c :: cs) (r :: rs) l2

/-! ## Lemmas -/

theorem freeEach_ok {h0 : Mem} {a : Nat} {l : List (Option Nat)} {b : List Nat} : ∀ (is : List Nat) {h : Heap},
    h.mem a = some (.ptrs l) → (∀ i ∈ is, i < l.length) → Owned h0 h.mem ((is.flatMap fun i => (l.getD i none).toList) ++ a :: b) →
    ∃ h', freeEach a is h = some ((), h') ∧ Owned h0 h'.mem (a :: b) ∧ ∀ x ∈ a :: b, h'.mem x = h.mem x := by
  intro is
  induction is with
  | nil => intro h _ _ o; exact ⟨h, rfl, o, fun _ _ => rfl⟩
  | cons i is ih =>
    intro h ha hi o
    rw [List.flatMap_cons, List.append_assoc] at o
    obtain ⟨h1, e1, o1, k1⟩ := freeP o
    obtain ⟨h2, e2, o2, k2⟩ := ih (h := h1) (by rw [k1 a (by simp)]; exact ha) (fun j hj => hi j (by simp [hj])) o1
    refine ⟨h2, ?_, o2, fun x hx => by rw [k2 x hx, k1 x (List.mem_append_right _ hx)]⟩
    have hi := hi i (by simp)
    have e0 : loadPtr (some a) i h = some (l.getD i none, h) := by
      simp only [loadPtr, ha, List.getElem?_eq_getElem hi, Option.map_some, List.getD_eq_getElem?_getD, Option.getD_some]
    simp only [freeEach, M.bind, e0, e1, e2, Option.bind_some]

theorem freeArr_ok {h0 : Mem} {h : Heap} {p : Option Nat} {l : List (Option Nat)} {is : List Nat} {b : List Nat} (hs : Slots h.mem p l)
    (hi : p ≠ none → ∀ i ∈ is, i < l.length) (o : Owned h0 h.mem ((if p = none then [] else is.flatMap fun i => (l.getD i none).toList) ++ p.toList ++ b)) :
    ∃ h', freeArr p is h = some ((), h') ∧ Owned h0 h'.mem b ∧ ∀ x ∈ b, h'.mem x = h.mem x := by
  rcases hs with ⟨rfl, rfl⟩ | ⟨a, rfl, ha⟩
  · exact ⟨h, rfl, by simpa using o, fun _ _ => rfl⟩
  · rw [if_neg (by simp), Option.toList_some, List.append_assoc] at o
    obtain ⟨h1, e1, o1, k1⟩ := freeEach_ok is ha (hi (by simp)) o
    obtain ⟨h2, e2, o2, k2⟩ := freeP (p := some a) (b := b) o1
    refine ⟨h2, ?_, o2, fun x hx => by rw [k2 x hx, k1 x (by simp [hx])]⟩
    simp only [freeArr, M.bind, e1, e2, Option.bind_some]

theorem range_blocks (l : List (Option Nat)) : ((List.range l.length).flatMap fun i => (l.getD i none).toList) = l.flatMap Option.toList := by
  induction l with
  | nil => rfl
  | cons a l ih =>
    rw [List.length_cons, List.range_succ_eq_map, List.flatMap_cons, List.flatMap_map, List.flatMap_cons]
    have h : (List.range l.length).flatMap (fun i => ((a :: l).getD i.succ none).toList) = l.flatMap Option.toList := by
      rw [← ih]; rfl
    rw [h]; rfl

theorem slots_length (fs : List Fee) : (slots fs).length = 2 * fs.length := by
  induction fs with
  | nil => rfl
  | cons f fs ih => simp only [slots, List.flatMap_cons, List.length_append, List.length_cons, List.length_nil] at ih ⊢; omega

theorem unit_blocks {fs : List Fee} (hk : ∀ f ∈ fs, f.kinds = none) :
    (((List.range fs.length).map (2 * ·)).flatMap fun i => ((slots fs).getD i none).toList) = (slots fs).flatMap Option.toList := by
  rw [List.flatMap_map]
  induction fs with
  | nil => rfl
  | cons f fs ih =>
    rw [List.length_cons, List.range_succ_eq_map, List.flatMap_cons, List.flatMap_map]
    have h : (List.range fs.length).flatMap (fun i => ((slots (f :: fs)).getD (2 * i.succ) none).toList) = (slots fs).flatMap Option.toList := by
      rw [← ih fun g hg => hk g (by simp [hg])]; rfl
    rw [h]
    have hf := hk f (by simp)
    simp [slots, hf]

theorem both_blocks (fs : List Fee) :
    (((List.range fs.length).flatMap fun i => [2 * i + 1, 2 * i]).flatMap fun i => ((slots fs).getD i none).toList) =
      fs.flatMap fun f => f.kinds.toList ++ f.unit.toList := by
  rw [List.flatMap_assoc]
  induction fs with
  | nil => rfl
  | cons f fs ih =>
    rw [List.length_cons, List.range_succ_eq_map, List.flatMap_cons, List.flatMap_map, List.flatMap_cons]
    have h : (List.range fs.length).flatMap (fun i => [2 * i.succ + 1, 2 * i.succ].flatMap fun j => ((slots (f :: fs)).getD j none).toList) =
        fs.flatMap fun f => f.kinds.toList ++ f.unit.toList := by
      rw [← ih]; rfl
    rw [h]
    simp [slots]

theorem both_count (fs : List Fee) (x : Nat) : (fs.flatMap fun f => f.kinds.toList ++ f.unit.toList).count x = ((slots fs).flatMap Option.toList).count x := by
  induction fs with
  | nil => rfl
  | cons f fs ih =>
    simp only [slots, List.flatMap_cons, List.count_append, List.flatMap_append, List.flatMap_nil, List.count_nil] at ih ⊢
    omega

theorem Slots.mono {m m' : Mem} {p l} (h : Slots m p l) (hm : ∀ a ∈ p.toList, m' a = m a) : Slots m' p l := by
  rcases h with h | ⟨a, rfl, ha⟩
  · exact .inl h
  · exact .inr ⟨a, rfl, by rw [hm a (by simp)]; exact ha⟩

theorem Holds.mono {m m' : Mem} {d t} (h : Holds m d t) (hm : ∀ a ∈ attached d t, m' a = m a) : Holds m' d t := by
  refine ⟨⟨h.retention.1.mono fun a ha => hm a ?_, h.retention.2⟩, ⟨h.admission.1.mono fun a ha => hm a ?_, h.admission.2⟩,
    ⟨h.subscription.1.mono fun a ha => hm a ?_, h.subscription.2⟩, ⟨h.publication.1.mono fun a ha => hm a ?_, h.publication.2⟩⟩
  all_goals simp only [attached, List.mem_append, ha, true_or, or_true]

theorem perm_of_count {a b : List Nat} (h : ∀ x, a.count x = b.count x) : a.Perm b := List.perm_iff_count.2 h

theorem destroy_ok {h0 : Mem} {h : Heap} {d t l} (i : Has h0 h.mem d t l) (hp : Plain t) :
    ∃ h', destroy d h = some ({}, h') ∧ h'.mem = h0 := by
  have null : ∀ {m : Mem} {p l}, Slots m p l → (if p = none then [] else l.flatMap Option.toList) = l.flatMap Option.toList := by
    intro m p l hs
    rcases hs with ⟨rfl, rfl⟩ | ⟨a, rfl, -⟩
    · rfl
    · rw [if_neg (by simp)]
  have o := i.own.perm (b := t.retention.flatMap Option.toList ++ d.retention.toList ++
    ((slots t.admission).flatMap Option.toList ++ d.admission.toList ++
    ((slots t.subscription).flatMap Option.toList ++ d.subscription.toList ++
    ((t.publication.flatMap fun f => f.kinds.toList ++ f.unit.toList) ++ d.publication.toList ++
    (d.nips.toList ++ (d.countries.toList ++ (d.languages.toList ++ (d.tags.toList ++ []))))))))
    (perm_of_count fun x => by
      simp only [attached, List.count_append, List.count_nil, both_count]; omega)
  have s1 := i.holds.retention
  obtain ⟨h1, e1, o1, k1⟩ := freeArr_ok (is := List.range d.retentionCount) s1.1 (fun _ i hi => by rw [s1.2] at hi; simpa using hi)
    (by rw [s1.2, range_blocks, null s1.1]; exact o)
  have s2 : Slots h1.mem d.admission (slots t.admission) := i.holds.admission.1.mono fun a ha => k1 a (by simp only [List.mem_append, ha, true_or, or_true])
  have c2 := i.holds.admission.2
  obtain ⟨h2, e2, o2, k2⟩ := freeArr_ok (is := (List.range d.admissionCount).map (2 * ·)) s2
    (fun _ i hi => by rw [c2] at hi; rw [slots_length]; simp only [List.mem_map, List.mem_range] at hi; omega)
    (by rw [c2, unit_blocks hp.1, null s2]; exact o1)
  have s3 : Slots h2.mem d.subscription (slots t.subscription) := i.holds.subscription.1.mono fun a ha => by
    rw [k2 a (by simp only [List.mem_append, ha, true_or, or_true]), k1 a (by simp only [List.mem_append, ha, true_or, or_true])]
  have c3 := i.holds.subscription.2
  obtain ⟨h3, e3, o3, k3⟩ := freeArr_ok (is := (List.range d.subscriptionCount).map (2 * ·)) s3
    (fun _ i hi => by rw [c3] at hi; rw [slots_length]; simp only [List.mem_map, List.mem_range] at hi; omega)
    (by rw [c3, unit_blocks hp.2, null s3]; exact o2)
  have s4 : Slots h3.mem d.publication (slots t.publication) := i.holds.publication.1.mono fun a ha => by
    rw [k3 a (by simp only [List.mem_append, ha, true_or, or_true]), k2 a (by simp only [List.mem_append, ha, true_or, or_true]),
      k1 a (by simp only [List.mem_append, ha, true_or, or_true])]
  have c4 := i.holds.publication.2
  have n4 : (if d.publication = none then [] else t.publication.flatMap fun f => f.kinds.toList ++ f.unit.toList) =
      t.publication.flatMap fun f => f.kinds.toList ++ f.unit.toList := by
    rcases s4 with ⟨hn, hl⟩ | ⟨a, ha, -⟩
    · rw [if_pos hn]
      have : t.publication = [] := by
        have := slots_length t.publication
        rw [hl] at this
        exact List.length_eq_zero_iff.1 (by simp at this; omega)
      rw [this]; rfl
    · rw [ha, if_neg (by simp)]
  obtain ⟨h4, e4, o4, -⟩ := freeArr_ok (is := (List.range d.publicationCount).flatMap fun i => [2 * i + 1, 2 * i]) s4
    (fun _ i hi => by
      rw [c4] at hi; rw [slots_length]
      simp only [List.mem_flatMap, List.mem_range, List.mem_cons, List.not_mem_nil, or_false] at hi
      obtain ⟨j, hj, hi⟩ := hi; omega)
    (by rw [c4, both_blocks, n4]; exact o3)
  obtain ⟨h5, e5, o5, -⟩ := freeP o4
  obtain ⟨h6, e6, o6, -⟩ := freeP o5
  obtain ⟨h7, e7, o7, -⟩ := freeP o6
  obtain ⟨h8, e8, o8, -⟩ := freeP o7
  refine ⟨h8, ?_, o8.eq⟩
  simp only [destroy, M.bind, e1, e2, e3, e4, e5, e6, e7, e8, Option.bind_some, M.pure]

theorem call_ok {A : Alloc} (hA : Fresh A) {h0 : Mem} {h : Heap} {d t l} (i : Has h0 h.mem d t l) {c : Call} (hc : Call.Sound h0 c) :
    ∃ r d' h' l', call A d c h = some ((r, d'), h') ∧ Did A h0 l c r l' ∧ Has h0 h'.mem d' t l' := by
  cases c with
  | add k =>
    rcases pushInt_ok hA i.nips i.own k with ⟨h1, e1, m1, f1⟩ | ⟨c, h1, e1, k1, o1, s1⟩
    · refine ⟨some .memory, d, h1, l, ?_, .full f1, m1 ▸ i⟩
      simp only [call, addNip, M.bind, e1, Option.bind_some, M.pure]
    · refine ⟨none, { d with nips := some c, count := d.count + 1 }, h1, l ++ [k], ?_, .added, ⟨?_, k1, o1⟩⟩
      · simp only [call, addNip, M.bind, e1, Option.bind_some, M.pure]
      · have h2 := i.holds.mono s1
        exact ⟨h2.retention, h2.admission, h2.subscription, h2.publication⟩
  | set src n =>
    obtain ⟨h1, e1, o1, k1⟩ := freeP i.own
    have h2 := i.holds.mono k1
    have hd : Has h0 h1.mem { d with nips := none, count := 0 } t [] :=
      ⟨⟨h2.retention, h2.admission, h2.subscription, h2.publication⟩, ⟨rfl, .inl ⟨rfl, rfl⟩⟩, o1⟩
    cases src with
    | none =>
      refine ⟨none, { d with nips := none, count := 0 }, h1, [], ?_, .set, hd⟩
      simp only [call, setNips, M.bind, e1, Option.bind_some, M.pure]
    | some p =>
      obtain ⟨s, hs, hn⟩ := hc
      have hg : given h0 (some p) n = s.take n := by simp only [given, hs]
      by_cases h0n : n = 0
      · have e : given h0 (some p) n = [] := by rw [hg, h0n]; rfl
        refine ⟨none, { d with nips := none, count := 0 }, h1, given h0 (some p) n, ?_, .set, by rw [e]; exact hd⟩
        simp only [call, setNips, M.bind, e1, Option.bind_some, M.pure, h0n, if_true]
      have hne : s.take n ≠ [] := by
        intro h
        have := congrArg List.length h
        rw [List.length_take, List.length_nil] at this
        omega
      rcases allocP hA o1 (.ints (List.replicate n 0)) with ⟨h3, e3, m3, f3⟩ | ⟨c, h3, e3, v3, o3, k3⟩
      · refine ⟨some .memory, { d with nips := none, count := 0 }, h3, [], ?_, .lost (by rw [hg]; exact hne) f3, by rw [m3]; exact hd⟩
        simp only [call, setNips, M.bind, e1, e3, Option.bind_some, M.pure, if_neg h0n]
      · have hp : h3.mem p = some (.ints s) := by
          rw [o3.same p fun hm => by have := o3.fresh p hm; rw [hs] at this; simp at this]; exact hs
        have e4 : loadInts p n h3 = some (s.take n, h3) := by simp only [loadInts, hp, hn, if_true]
        have e5 : store c (.ints (s.take n)) h3 = some ((), ⟨upd h3.mem c (some (.ints (s.take n))), h3.tick⟩) := by
          simp only [store, v3, Option.isSome_some, if_true]
        have hcn : ∀ x ∈ attached d t, x ≠ c := by
          rintro x hx rfl
          exact (List.nodup_cons.1 o3.nodup).1 hx
        refine ⟨none, { d with nips := some c, count := n }, ⟨upd h3.mem c (some (.ints (s.take n))), h3.tick⟩, given h0 (some p) n, ?_, .set, ?_⟩
        · simp only [call, setNips, M.bind, e1, e3, e4, e5, Option.bind_some, M.pure, if_neg h0n]
        · have h6 := h2.mono (m' := upd h3.mem c (some (.ints (s.take n)))) fun x hx => by
            rw [upd_other _ _ (hcn x hx)]; exact k3 x hx
          refine ⟨⟨h6.retention, h6.admission, h6.subscription, h6.publication⟩, ⟨?_, .inr ⟨c, rfl, ?_, ?_⟩⟩, o3.write (by simp) _⟩
          · rw [hg, List.length_take]; simp only; omega
          · rw [hg]; exact hne
          · rw [hg]; simp

theorem calls_ok {A : Alloc} (hA : Fresh A) {h0 : Mem} : ∀ (cs : List Call) {h : Heap} {d t l}, Has h0 h.mem d t l → (∀ c ∈ cs, Call.Sound h0 c) →
    ∃ rs d' h' l', calls A d cs h = some ((rs, d'), h') ∧ Went A h0 l cs rs l' ∧ Has h0 h'.mem d' t l' := by
  intro cs
  induction cs with
  | nil => intro h d t l i _; exact ⟨[], d, h, l, rfl, .nil, i⟩
  | cons c cs ih =>
    intro h d t l i hc
    obtain ⟨r, d1, h1, l1, e1, w1, i1⟩ := call_ok hA i (hc c (by simp))
    obtain ⟨rs, d2, h2, l2, e2, w2, i2⟩ := ih i1 fun c hm => hc c (by simp [hm])
    refine ⟨r :: rs, d2, h2, l2, ?_, .cons w1 w2, i2⟩
    simp only [calls, M.bind, e1, e2, Option.bind_some, M.pure]

/-! ## C158 -/

/-- C158: a program that sets and extends the list of NIPs of a document any number of times, wherever memory runs out,
with any arrays attached to the document. No call uses memory that is not live; the document holds the list that the
calls demand; freeing the document releases each block exactly once, all that was taken and all that was attached, and
leaves a document that may be freed again. Missing: kinds of admission and subscription fees
(`C158_kinds_refuted`), and setting the list to itself (`C72_own_refuted`). -/
theorem C158_history_partial {A : Alloc} (hA : Fresh A) {h0 : Mem} {h : Heap} {d : HDoc} {t : Att} (i : Has h0 h.mem d t []) (hp : Plain t)
    {cs : List Call} (hc : ∀ c ∈ cs, Call.Sound h0 c) :
    ∃ rs d' h' l h'', calls A d cs h = some ((rs, d'), h') ∧ Went A h0 [] cs rs l ∧ Has h0 h'.mem d' t l ∧
      destroy d' h' = some ({}, h'') ∧ h''.mem = h0 ∧ destroy {} h'' = some ({}, h'') := by
  obtain ⟨rs, d', h', l, e1, w1, i1⟩ := calls_ok hA cs i hc
  obtain ⟨h'', e2, m2⟩ := destroy_ok i1 hp
  exact ⟨rs, d', h', l, h'', e1, w1, i1, e2, m2, rfl⟩

/-- A document with one admission fee for some kinds. -/
def leaky : HDoc := { admission := some 1, admissionCount := 1 }

/-- Memory with the blocks of that document only. -/
def leakyMem : Heap := ⟨upd (upd (upd (fun _ => none) 3 (some (.ints [1]))) 2 (some (.str c!"sats"))) 1 (some (.ptrs [some 2, some 3])), 0⟩

/-- C158 fails for kinds of admission fees: they are attached to the document, but freeing it does not release them. -/
theorem C158_kinds_refuted : Has (fun _ => none) leakyMem.mem leaky { admission := [⟨some 2, some 3⟩] } [] ∧
    ∃ d h', destroy leaky leakyMem = some (d, h') ∧ h'.mem 3 = some (.ints [1]) := by
  refine ⟨⟨⟨⟨.inl ⟨rfl, rfl⟩, rfl⟩, ⟨.inr ⟨1, rfl, rfl⟩, rfl⟩, ⟨.inl ⟨rfl, rfl⟩, rfl⟩, ⟨.inl ⟨rfl, rfl⟩, rfl⟩⟩, ⟨rfl, .inl ⟨rfl, rfl⟩⟩, ?_⟩, ?_⟩
  · have o1 := Owned.new (Owned.nil (fun _ => none : Mem)) (c := 3) rfl (.ints [1])
    have o2 := o1.new (c := 2) rfl (.str c!"sats")
    have o3 := o2.new (c := 1) rfl (.ptrs [some 2, some 3])
    exact o3.perm (by decide)
  · cases hd : destroy leaky leakyMem with
    | none => exact absurd (show (destroy leaky leakyMem).isSome = true by decide +kernel) (by rw [hd]; simp)
    | some r =>
      have : (destroy leaky leakyMem).map (fun r => r.2.mem 3) = some (some (.ints [1])) := by decide +kernel
      rw [hd] at this
      exact ⟨r.1, r.2, rfl, by simpa using this⟩

/-! ## Cases -/

/-- Memory with an array of the caller at 1000. -/
def start : Heap := ⟨fun a => if a = 1000 then some (.ints [1, 9, 11]) else none, 0⟩

/-- Addresses one after the other; the allocations from `k` on fail. -/
def upTo (k : Nat) : Alloc := fun m n => if n < k ∧ m n = none then some n else none

/-- The statuses of some calls, the number of NIPs, and whether the memory is as before in the end. -/
def outcome (k : Nat) (cs : List Call) : Option (List (Option RelayErr) × Nat × Bool) :=
  match calls (upTo k) {} cs start with
  | some ((rs, d), h1) => match destroy d h1 with
    | some (_, h2) => some (rs, d.count, (List.range 9).all fun a => (h2.mem a).isNone)
    | none => none
  | none => none

example : Has start.mem start.mem {} {} [] := by
  refine ⟨⟨⟨.inl ⟨rfl, rfl⟩, rfl⟩, ⟨.inl ⟨rfl, rfl⟩, rfl⟩, ⟨.inl ⟨rfl, rfl⟩, rfl⟩, ⟨.inl ⟨rfl, rfl⟩, rfl⟩⟩, ⟨rfl, .inl ⟨rfl, rfl⟩⟩, ?_⟩
  exact Owned.nil _

example : Call.Sound start.mem (.set (some 1000) 2) ∧ Plain {} := ⟨⟨_, rfl, by decide⟩, by simp [Plain]⟩

example : outcome 9 [.add 4, .set (some 1000) 2, .add 7] = some ([none, none, none], 3, true) := by decide +kernel

example : outcome 1 [.add 4, .add 5, .set (some 1000) 3] = some ([none, some .memory, some .memory], 0, true) := by decide +kernel

end Nostr.Own.Doc.Props
