import Verif.Arena.Inv

/-! # The nonce tag in the tag memory -/

namespace Nostr.Arena
open Nostr

/-! ## Lists -/

theorem pairwise_set {α : Type} {R : α → α → Prop} (sym : ∀ a b, R a b → R b a) {l : List α} {i : Nat} {x : α}
    (h : l.Pairwise R) (hx : ∀ k (hk : k < l.length), k ≠ i → R l[k] x) : (l.set i x).Pairwise R := by
  rw [List.pairwise_iff_getElem] at h ⊢
  intro a b ha hb hab
  simp only [List.length_set] at ha hb
  simp only [List.getElem_set]
  split
  · rename_i e1
    split
    · omega
    · exact sym _ _ (hx b hb (by omega))
  · rename_i e1
    split
    · exact hx a ha (by omega)
    · exact h a b ha hb hab

theorem Obj.Away.symm {a b : Obj} (h : a.Away b) : b.Away a := Or.symm h

theorem PtrsAt.get {m : Mem} {a : Nat} {ps : List Nat} (h : PtrsAt m a ps) (j : Nat) (hj : j < ps.length) :
    PtrAt m (a + 8 * j) ps[j] := by
  induction ps generalizing a j with
  | nil => simp at hj
  | cons p ps ih =>
      cases j with
      | zero => exact h.1
      | succ j =>
          simp only [List.length_cons] at hj
          have := ih h.2 j (by omega)
          rwa [show a + 8 + 8 * j = a + 8 * (j + 1) by omega] at this

theorem PtrsAt.set {m m' : Mem} {a p : Nat} {ps : List Nat} (h : PtrsAt m a ps) (j : Nat) (hj : j < ps.length)
    (hp : PtrAt m' (a + 8 * j) p) (e : ∀ x, x < a + 8 * j ∨ a + 8 * j + 8 ≤ x → m' x = m x) :
    PtrsAt m' a (ps.set j p) := by
  induction ps generalizing a j with
  | nil => simp at hj
  | cons q ps ih =>
      cases j with
      | zero =>
          exact ⟨hp, h.2.frame (fun x hx _ => e x (by omega))⟩
      | succ j =>
          simp only [List.length_cons] at hj
          refine ⟨h.1.frame (fun x hx hx2 => e x (by omega)), ih h.2 j (by omega) ?_ (fun x hx => e x (by omega))⟩
          rwa [show a + 8 + 8 * j = a + 8 * (j + 1) by omega]

/-! ## Room -/

theorem ensure_ok {A : Alloc} {s : St} {os : List Obj} (h : Inv s os) (hA : A.Valid) {needed : Nat}
    (hn : needed ≤ 1024) :
    ensure A s needed = .ok none ∨
    ∃ s' f, ensure A s needed = .ok (some s') ∧ Inv s' (os.map f) ∧ texts (os.map f) = texts os ∧
      (∀ o, (f o).vals.length = o.vals.length) ∧ Keeps s s' ∧ s'.used = s.used ∧ s.used + needed ≤ s'.cap := by
  have h1 := h.used
  have h2 := h.cap
  have h3 := h.small
  unfold ensure
  rw [Nat.mod_eq_of_lt (by omega)]
  split
  · exact .inr ⟨s, id, rfl, by rw [List.map_id]; exact h, by simp, fun _ => rfl, Keeps.refl s, rfl, by omega⟩
  · have e : doubling13 65 s.cap (s.used + needed) = some (s.cap * 2) := by
      rw [show (65 : Nat) = 63 + 1 + 1 from rfl, doubling13, if_pos (by omega), doubling13,
        Nat.mod_eq_of_lt (by omega), if_neg (by omega)]
    rw [e]
    rcases grow_ok h hA (newCap := s.cap * 2) (by omega) with g | ⟨s1, f, g, i1, t1, l1, k1, c1, u1⟩
    · exact .inl g
    · exact .inr ⟨s1, f, g, i1, t1, l1, k1, u1, by rw [c1]; omega⟩

theorem writeBytes_ok {m : Mem} {a : Nat} {t : Bytes} (ht : CStr t)
    (hm : ∀ x, a ≤ x → x < a + (t.length + 1) → m x ≠ none) :
    ∃ m', writeBytes m a (t ++ [0]) = .ok m' ∧ StrAt m' a t ∧
      (∀ x, x < a ∨ a + (t.length + 1) ≤ x → m' x = m x) ∧ (∀ x, m' x = none ↔ m x = none) := by
  induction t generalizing m a with
  | nil =>
      have h0 := hm a (by omega) (by simp)
      refine ⟨fun x => if x = a then some (.byte 0) else m x, ?_, ?_, ?_, ?_⟩
      · simp [writeBytes, Option.isSome_iff_ne_none.2 h0]
      · simp [StrAt]
      · intro x hx
        simp only [List.length_nil] at hx
        simp only
        rw [if_neg (by omega)]
      · intro x
        simp only
        split
        · rename_i e; subst e; simp [h0]
        · rfl
  | cons b t ih =>
      have h0 := hm a (by omega) (by simp only [List.length_cons]; omega)
      simp only [List.length_cons] at hm
      have hb : b ≠ 0 ∧ CStr t := by
        constructor
        · intro e; exact ht (by simp [e])
        · intro e; exact ht (by simp [e])
      have n0 : ∀ x, (if x = a then some (Cell.byte b) else m x) = none ↔ m x = none := by
        intro x
        split
        · rename_i e; subst e; simp [h0]
        · rfl
      obtain ⟨m', e, s1, f1, n1⟩ := ih (m := fun x => if x = a then some (.byte b) else m x) (a := a + 1) hb.2
        (fun x h1 h2 => by rw [Ne, n0]; exact hm x (by omega) (by omega))
      refine ⟨m', ?_, ⟨?_, hb.1, s1⟩, ?_, ?_⟩
      · simp only [List.cons_append, writeBytes, Option.isSome_iff_ne_none.2 h0, if_true]
        exact e
      · rw [f1 a (by omega)]; simp
      · intro x hx
        simp only [List.length_cons] at hx
        rw [f1 x (by omega)]
        rw [if_neg (by omega)]
      · intro x
        rw [n1, n0]

/-- A text in the block which no array overlaps. -/
structure Free (s : St) (os : List Obj) (p : Nat) (t : Bytes) : Prop where
  nz : p ≠ 0
  text : StrAt s.mem p t
  inside : s.base ≤ p ∧ p + (t.length + 1) ≤ s.base + s.used
  clear : ∀ o ∈ os, Apart o.addr (8 * o.vals.length) p (t.length + 1)

theorem strdup_ok {A : Alloc} {s : St} {os : List Obj} (h : Inv s os) (hA : A.Valid) {t : Bytes} (ht : CStr t)
    (hn : t.length + 1 ≤ 1024) :
    strdup A s t = .ok none ∨
    ∃ p s' f, strdup A s t = .ok (some (p, s')) ∧ Inv s' (os.map f) ∧ texts (os.map f) = texts os ∧
      (∀ o, (f o).vals.length = o.vals.length) ∧ Keeps s s' ∧ Free s' (os.map f) p t := by
  unfold strdup
  rcases ensure_ok h hA hn with e | ⟨s1, f, e, i1, t1, l1, k1, u1, c1⟩
  · rw [e]; exact .inl rfl
  · right
    rw [e, Res.bind_ok]
    have hb := i1.base
    obtain ⟨m', e2, w1, w2, w3⟩ := writeBytes_ok (m := s1.mem) (a := s1.base + s1.used) ht
      (fun x a b => i1.mapped x (by omega) (by omega))
    simp only [e2, Res.bind_ok]
    have old : ∀ x, x < s1.base + s1.used → m' x = s1.mem x := fun x hx => w2 x (by omega)
    have i2 := i1.more (n := t.length + 1) (by omega)
    refine ⟨_, _, f, rfl, ?_, t1, l1, ?_, ?_⟩
    · exact { i2 with
        mapped := fun x a b => by
          show m' x ≠ none
          rw [Ne, w3]; exact i1.mapped x a b
        arrays := fun o ho => (i1.arrays o ho).frame (fun x a b => old x (by
          have := i1.inArray o ho
          rw [Obj.ptrs_length] at b
          omega))
        texts := fun p t hl => ⟨(i1.texts p t hl).1, (i1.texts p t hl).2.frame (fun x a b => old x (by
          have := i1.inText p t hl
          omega))⟩ }
    · refine k1.trans (fun x hx hn => ⟨w2 x (by omega), hx⟩)
    · exact {
        nz := by omega
        text := w1
        inside := by simp only; omega
        clear := fun o ho => by
          have := i1.inArray o ho
          simp only [Apart]
          omega }

theorem texts_length (os : List Obj) : (texts os).length = os.length := by simp [texts]

theorem texts_set (os : List Obj) (i : Nat) (o : Obj) :
    texts (os.set i o) = (texts os).set i (o.vals.map Prod.snd) := by
  simp [texts, List.map_set]

theorem Live.set {os : List Obj} {i : Nat} {o : Obj} {p : Nat} {t : Bytes} (h : Live (os.set i o) p t) :
    Live os p t ∨ (p, some t) ∈ o.vals := by
  obtain ⟨o', ho', hq⟩ := h
  rcases List.mem_or_eq_of_mem_set ho' with h1 | h1
  · exact .inl ⟨o', h1, hq⟩
  · subst h1; exact .inr hq

theorem setValue_ok {s : St} {os : List Obj} (h : Inv s os) {i j : Nat} (hi : i < os.length)
    (hj : j < os[i].vals.length) {p : Nat} {t : Bytes} (hf : Free s os p t) :
    ∃ s', setValue s i j p = .ok s' ∧
      Inv s' (os.set i ⟨os[i].addr, os[i].vals.set j (p, some t)⟩) ∧ Keeps s s' ∧ s'.tags = s.tags := by
  have hin := h.inArray os[i] (List.getElem_mem hi)
  have hu := h.used
  have hg : s.tags.getD i (0, 0) = os[i].tag := by simp [h.tags, List.getD, List.getElem?_map, List.getElem?_eq_getElem hi]
  unfold setValue
  rw [hg]
  obtain ⟨m', e, w1, w2, w3⟩ := writePtr_ok (m := s.mem) (a := os[i].addr + 8 * j) (p := p)
    (fun x a b => h.mapped x (by omega) (by omega))
  refine ⟨{ s with mem := m' }, by simp only [Obj.tag]; rw [e, Res.bind_ok], ?_, ?_, rfl⟩
  · have live : ∀ q u, Live (os.set i ⟨os[i].addr, os[i].vals.set j (p, some t)⟩) q u → Live os q u ∨ q = p ∧ u = t := by
      intro q u hl
      rcases hl.set with h1 | h1
      · exact .inl h1
      · rcases List.mem_or_eq_of_mem_set h1 with h2 | h2
        · exact .inl ⟨os[i], List.getElem_mem hi, h2⟩
        · simp only [Prod.mk.injEq, Option.some.injEq] at h2
          exact .inr h2
    have tagsEq : (os.set i ⟨os[i].addr, os[i].vals.set j (p, some t)⟩).map Obj.tag = os.map Obj.tag := by
      rw [List.map_set]
      apply List.ext_getElem (by simp)
      intro k h1 h2
      rw [List.getElem_set]
      split
      · rename_i e; subst e; simp [Obj.tag]
      · rfl
    have mem : ∀ o ∈ os.set i ⟨os[i].addr, os[i].vals.set j (p, some t)⟩,
        ∃ o0 ∈ os, o0.addr = o.addr ∧ o0.vals.length = o.vals.length := by
      intro o ho
      rcases List.mem_or_eq_of_mem_set ho with h1 | h1
      · exact ⟨o, h1, rfl, rfl⟩
      · exact ⟨os[i], List.getElem_mem hi, by rw [h1], by rw [h1]; simp⟩
    exact {
      used := h.used
      cap := h.cap
      small := h.small
      base := h.base
      top := h.top
      mapped := fun x a b => by
        show m' x ≠ none
        rw [Ne, w3]; exact h.mapped x a b
      tags := by rw [tagsEq]; exact h.tags
      arrays := by
        intro o ho
        obtain ⟨k, hk, rfl⟩ := List.getElem_of_mem ho
        simp only [List.length_set] at hk
        rw [List.getElem_set]
        split
        · have := (h.arrays os[i] (List.getElem_mem hi)).set j (by simpa using hj) w1 w2
          simp only [Obj.ptrs, List.map_set] at this ⊢
          exact this
        · rename_i hne
          have ha : os[i].Away os[k] := by
            have hp := List.pairwise_iff_getElem.1 h.away
            rcases Nat.lt_or_ge i k with h1 | h1
            · exact hp i k hi hk h1
            · exact (hp k i hk hi (by omega)).symm
          refine (h.arrays os[k] (List.getElem_mem hk)).frame (fun x a b => w2 x ?_)
          rw [Obj.ptrs_length] at b
          simp only [Obj.Away, Apart] at ha
          omega
      texts := by
        intro q u hl
        have fr : ∀ q u, StrAt s.mem q u → Apart os[i].addr (8 * os[i].vals.length) q (u.length + 1) → StrAt m' q u := by
          intro q u hs ha
          refine hs.frame (fun x a b => w2 x ?_)
          simp only [Apart] at ha
          omega
        rcases live q u hl with h1 | ⟨rfl, rfl⟩
        · exact ⟨(h.texts q u h1).1, fr q u (h.texts q u h1).2 (h.clear _ (List.getElem_mem hi) q u h1)⟩
        · exact ⟨hf.nz, fr _ _ hf.text (hf.clear _ (List.getElem_mem hi))⟩
      nulls := by
        intro o ho q hq hn
        rcases List.mem_or_eq_of_mem_set ho with h1 | h1
        · exact h.nulls o h1 q hq hn
        · rw [h1] at hq
          rcases List.mem_or_eq_of_mem_set hq with h2 | h2
          · exact h.nulls os[i] (List.getElem_mem hi) q h2 hn
          · rw [h2] at hn
            simp at hn
      inArray := by
        intro o ho
        obtain ⟨o0, h0, e1, e2⟩ := mem o ho
        have := h.inArray o0 h0
        rw [e1, e2] at this
        exact this
      inText := by
        intro q u hl
        rcases live q u hl with h1 | ⟨rfl, rfl⟩
        · exact h.inText q u h1
        · exact hf.inside
      away := by
        refine pairwise_set (fun _ _ => Obj.Away.symm) h.away (fun k hk hne => ?_)
        have hp := List.pairwise_iff_getElem.1 h.away
        have : os[k].Away os[i] := by
          rcases Nat.lt_or_ge i k with h1 | h1
          · exact (hp i k hi hk h1).symm
          · exact hp k i hk hi (by omega)
        simpa [Obj.Away] using this
      clear := by
        intro o ho q u hl
        obtain ⟨o0, h0, e1, e2⟩ := mem o ho
        rw [← e1, ← e2]
        rcases live q u hl with h1 | ⟨rfl, rfl⟩
        · exact h.clear o0 h0 q u h1
        · exact hf.clear o0 h0 }
  · intro x hx hn
    exact ⟨w2 x (by omega), hx⟩

/-- Changing `count` of one tag to a smaller number. -/
theorem truncate_ok {s : St} {os : List Obj} (h : Inv s os) {i : Nat} (hi : i < os.length) {n : Nat}
    (hn : n ≤ os[i].vals.length) :
    Inv { s with tags := s.tags.set i ((s.tags.getD i (0, 0)).1, n) } (os.set i ⟨os[i].addr, os[i].vals.take n⟩) := by
  have hg : s.tags.getD i (0, 0) = os[i].tag := by simp [h.tags, List.getD, List.getElem?_map, List.getElem?_eq_getElem hi]
  have live : ∀ q u, Live (os.set i ⟨os[i].addr, os[i].vals.take n⟩) q u → Live os q u := by
    intro q u hl
    rcases hl.set with h1 | h1
    · exact h1
    · exact ⟨os[i], List.getElem_mem hi, List.mem_of_mem_take h1⟩
  have mem : ∀ o ∈ os.set i ⟨os[i].addr, os[i].vals.take n⟩,
      ∃ o0 ∈ os, o0.addr = o.addr ∧ o.vals.length ≤ o0.vals.length := by
    intro o ho
    rcases List.mem_or_eq_of_mem_set ho with h1 | h1
    · exact ⟨o, h1, rfl, Nat.le_refl _⟩
    · exact ⟨os[i], List.getElem_mem hi, by rw [h1], by rw [h1]; simp; omega⟩
  exact {
    used := h.used
    cap := h.cap
    small := h.small
    base := h.base
    top := h.top
    mapped := h.mapped
    tags := by
      rw [hg, List.map_set]
      show s.tags.set i _ = _
      rw [h.tags]
      congr 1
      simp [Obj.tag, Nat.min_eq_left hn]
    arrays := by
      intro o ho
      rcases List.mem_or_eq_of_mem_set ho with h1 | h1
      · exact h.arrays o h1
      · rw [h1]
        have : ∀ (a : Nat) (ps : List Nat) (n : Nat), PtrsAt s.mem a ps → PtrsAt s.mem a (ps.take n) := by
          intro a ps
          induction ps generalizing a with
          | nil => intro n _; simp [PtrsAt]
          | cons p ps ih =>
              intro n hp
              cases n with
              | zero => trivial
              | succ n => exact ⟨hp.1, ih _ n hp.2⟩
        have h2 := this _ _ n (h.arrays os[i] (List.getElem_mem hi))
        simp only [Obj.ptrs, List.map_take] at h2 ⊢
        exact h2
    texts := fun q u hl => h.texts q u (live q u hl)
    nulls := by
      intro o ho q hq hn
      rcases List.mem_or_eq_of_mem_set ho with h1 | h1
      · exact h.nulls o h1 q hq hn
      · rw [h1] at hq
        exact h.nulls os[i] (List.getElem_mem hi) q (List.mem_of_mem_take hq) hn
    inArray := by
      intro o ho
      obtain ⟨o0, h0, e1, e2⟩ := mem o ho
      have := h.inArray o0 h0
      simp only
      omega
    inText := fun q u hl => h.inText q u (live q u hl)
    away := by
      refine pairwise_set (fun _ _ => Obj.Away.symm) h.away (fun k hk hne => ?_)
      have hp := List.pairwise_iff_getElem.1 h.away
      have : os[k].Away os[i] := by
        rcases Nat.lt_or_ge i k with h1 | h1
        · exact (hp i k hi hk h1).symm
        · exact hp k i hk hi (by omega)
      simp only [Obj.Away, Apart, List.length_take] at this ⊢
      omega
    clear := by
      intro o ho q u hl
      obtain ⟨o0, h0, e1, e2⟩ := mem o ho
      have := h.clear o0 h0 q u (live q u hl)
      simp only [Apart] at this ⊢
      omega }

/-- A new array for a tag with two values. -/
theorem expand_ok {A : Alloc} {s : St} {os : List Obj} (h : Inv s os) (hA : A.Valid) {i : Nat} (hi : i < os.length)
    (h2 : os[i].vals.length = 2) :
    expand A s i = .ok none ∨
    ∃ s' os', expand A s i = .ok (some s') ∧ Inv s' os' ∧ Keeps s s' ∧ os'.length = os.length ∧
      texts os' = (texts os).set i (os[i].vals.map Prod.snd ++ [none]) := by
  unfold expand
  rcases ensure_ok h hA (show 24 ≤ 1024 by omega) with e | ⟨s1, f, e, i1, t1, l1, k1, u1, c1⟩
  · rw [e]; exact .inl rfl
  · right
    rw [e, Res.bind_ok]
    have hi1 : i < (os.map f).length := by simpa using hi
    have hv : ((os.map f)[i]).vals.length = 2 := by simp [l1, h2]
    have hx : ((os.map f)[i]).vals.map Prod.snd = os[i].vals.map Prod.snd := by
      have := congrArg (fun l => l[i]?) t1
      simp only [texts, List.getElem?_map, List.getElem?_eq_getElem hi, Option.map_some,
        Option.some.injEq] at this
      simpa using this
    have hg : s1.tags.getD i (0, 0) = ((os.map f)[i]).tag := by
      simp [i1.tags, List.getD, List.getElem?_map, List.getElem?_eq_getElem hi]
    generalize hos : os.map f = os1 at *
    have hin := i1.inArray os1[i] (List.getElem_mem hi1)
    have harr := i1.arrays os1[i] (List.getElem_mem hi1)
    obtain ⟨q0, q1, hq⟩ : ∃ q0 q1, os1[i].vals = [q0, q1] := by
      match hvv : os1[i].vals, hv with
      | [a, b], _ => exact ⟨a, b, rfl⟩
    have hp : os1[i].ptrs = [q0.1, q1.1] := by simp [Obj.ptrs, hq]
    rw [hp] at harr
    rw [hq] at hin
    simp only [List.length_cons, List.length_nil] at hin
    simp only [hg, Obj.tag]
    have mp := i1.mapped
    rw [readPtr_iff.2 harr.1, Res.bind_ok]
    obtain ⟨m1, e1, a1, a2, a3⟩ := writePtr_ok (m := s1.mem) (a := s1.base + s1.used) (p := q0.1)
      (fun x a b => mp x (by omega) (by omega))
    rw [e1, Res.bind_ok, readPtr_iff.2 (harr.2.1.frame (m' := m1) (fun x a b => a2 x (by omega))), Res.bind_ok]
    obtain ⟨m2, e2, b1, b2, b3⟩ := writePtr_ok (m := m1) (a := s1.base + s1.used + 8) (p := q1.1)
      (fun x a b => by rw [Ne, a3]; exact mp x (by omega) (by omega))
    rw [e2, Res.bind_ok]
    obtain ⟨m3, e3, d1, d2, d3⟩ := writePtr_ok (m := m2) (a := s1.base + s1.used + 16) (p := 0)
      (fun x a b => by rw [Ne, b3, a3]; exact mp x (by omega) (by omega))
    rw [e3, Res.bind_ok]
    have old : ∀ x, x < s1.base + s1.used ∨ s1.base + s1.used + 24 ≤ x → m3 x = s1.mem x := by
      intro x hx
      rw [d2 x (by omega), b2 x (by omega), a2 x (by omega)]
    have nn : ∀ x, m3 x = none ↔ s1.mem x = none := fun x => by rw [d3, b3, a3]
    have live : ∀ q u, Live (os1.set i ⟨s1.base + s1.used, [q0, q1, (0, none)]⟩) q u → Live os1 q u := by
      intro q u hl
      rcases hl.set with h1 | h1
      · exact h1
      · refine ⟨os1[i], List.getElem_mem hi1, ?_⟩
        rw [hq]
        simp only [List.mem_cons, Prod.mk.injEq, reduceCtorEq, and_false, List.not_mem_nil, or_false] at h1 ⊢
        exact h1
    refine ⟨_, os1.set i ⟨s1.base + s1.used, [q0, q1, (0, none)]⟩, rfl, ?_, ?_, ?_, ?_⟩
    · exact {
        used := by simp only; omega
        cap := i1.cap
        small := i1.small
        base := i1.base
        top := i1.top
        mapped := fun x a b => by
          show m3 x ≠ none
          rw [Ne, nn]; exact mp x a b
        tags := by
          simp only [i1.tags, List.map_set]
          rfl
        arrays := by
          intro o ho
          rcases List.mem_or_eq_of_mem_set ho with h1 | h1
          · refine (i1.arrays o h1).frame (fun x a b => old x ?_)
            have := i1.inArray o h1
            rw [Obj.ptrs_length] at b
            omega
          · rw [h1]
            refine ⟨a1.frame (fun x a b => ?_), b1.frame (fun x a b => d2 x (by omega)), d1, trivial⟩
            show m3 x = _
            rw [d2 x (by omega), b2 x (by omega)]
        texts := by
          intro q u hl
          have h1 := live q u hl
          refine ⟨(i1.texts q u h1).1, (i1.texts q u h1).2.frame (fun x a b => old x ?_)⟩
          have := i1.inText q u h1
          omega
        nulls := by
          intro o ho q hq' hn
          rcases List.mem_or_eq_of_mem_set ho with h1 | h1
          · exact i1.nulls o h1 q hq' hn
          · rw [h1] at hq'
            simp only [List.mem_cons, List.not_mem_nil, or_false] at hq'
            rcases hq' with rfl | rfl | rfl
            · exact i1.nulls os1[i] (List.getElem_mem hi1) _ (by rw [hq]; simp) hn
            · exact i1.nulls os1[i] (List.getElem_mem hi1) _ (by rw [hq]; simp) hn
            · rfl
        inArray := by
          intro o ho
          rcases List.mem_or_eq_of_mem_set ho with h1 | h1
          · have := i1.inArray o h1
            simp only
            omega
          · rw [h1]
            simp only [List.length_cons, List.length_nil]
            omega
        inText := by
          intro q u hl
          have := i1.inText q u (live q u hl)
          simp only
          omega
        away := by
          refine pairwise_set (fun _ _ => Obj.Away.symm) i1.away (fun k hk hne => ?_)
          have := i1.inArray os1[k] (List.getElem_mem hk)
          simp only [Obj.Away, Apart, List.length_cons, List.length_nil]
          omega
        clear := by
          intro o ho q u hl
          have hl1 := live q u hl
          rcases List.mem_or_eq_of_mem_set ho with h1 | h1
          · exact i1.clear o h1 q u hl1
          · have := i1.inText q u hl1
            rw [h1]
            simp only [Apart, List.length_cons, List.length_nil]
            omega }
    · refine k1.trans (fun x hx hn => ⟨old x (by omega), hx⟩)
    · rw [List.length_set, ← hos]; simp
    · rw [texts_set, t1, ← hx, hq]
      simp

theorem getElem_texts (os : List Obj) (i : Nat) (hi : i < os.length) :
    (texts os)[i]'(by rw [texts_length]; exact hi) = os[i].vals.map Prod.snd := by simp [texts]

/-- The third value. -/
theorem setTarget_ok {A : Alloc} {s : St} {os : List Obj} (h : Inv s os) (hA : A.Valid) {i : Nat} (hi : i < os.length)
    (h3 : 3 ≤ os[i].vals.length) {t : Bytes} (ht : CStr t) (hn : t.length + 1 ≤ 1024) :
    setTarget A s i t = .ok (s, some .memory) ∨
    ∃ s' os', setTarget A s i t = .ok (s', none) ∧ Inv s' os' ∧ Keeps s s' ∧
      texts os' = (texts os).set i ((os[i].vals.map Prod.snd).set 2 (some t)) := by
  unfold setTarget
  rcases strdup_ok h hA ht hn with e | ⟨p, s1, f, e, i1, t1, l1, k1, fr⟩
  · rw [e]; exact .inl rfl
  · right
    rw [e, Res.bind_ok]
    have hi1 : i < (os.map f).length := by simpa using hi
    have hx : ((os.map f)[i]).vals.map Prod.snd = os[i].vals.map Prod.snd := by
      have := congrArg (fun l => l[i]?) t1
      simp only [texts, List.getElem?_map, List.getElem?_eq_getElem hi, Option.map_some,
        Option.some.injEq] at this
      simpa using this
    obtain ⟨s2, e2, i2, k2, _⟩ := setValue_ok i1 hi1 (j := 2) (by simp [l1]; omega) fr
    simp only [e2, Res.bind_ok]
    refine ⟨s2, _, rfl, i2, k1.trans k2, ?_⟩
    rw [texts_set, t1, List.map_set, hx]

/-- What the values of the nonce tag become. -/
def renewed (row : List (Option Bytes)) (nonce : Bytes) (target : Option Bytes) : List (Option Bytes) :=
  match target with
  | none => [row.getD 0 none, some nonce]
  | some t => row.getD 0 none :: some nonce :: some t :: row.drop 3

/-- The new nonce and target, or an error: then the tag is as before, or has the new nonce with the old
target, or has the new nonce and a NULL target. -/
theorem updateNonce_ok {A : Alloc} {s : St} {os : List Obj} (h : Inv s os) (hA : A.Valid) {i : Nat}
    (hi : i < os.length) (h2 : 2 ≤ os[i].vals.length) {nonce : Bytes} (hc : CStr nonce)
    (hn : nonce.length + 1 ≤ 1024) {target : Option Bytes}
    (ht : ∀ t, target = some t → CStr t ∧ t.length + 1 ≤ 1024) :
    (∃ s' os', updateNonce A s i nonce target = .ok (s', none) ∧ Inv s' os' ∧ Keeps s s' ∧
      texts os' = (texts os).set i (renewed (os[i].vals.map Prod.snd) nonce target)) ∨
    ∃ s' os', updateNonce A s i nonce target = .ok (s', some .memory) ∧ Inv s' os' ∧ Keeps s s' ∧
      (texts os' = texts os ∨
        texts os' = (texts os).set i ((os[i].vals.map Prod.snd).set 1 (some nonce)) ∧ target ≠ none ∨
        os[i].vals.length = 2 ∧ target ≠ none ∧
          texts os' = (texts os).set i ((os[i].vals.map Prod.snd).set 1 (some nonce) ++ [none])) := by
  unfold updateNonce
  rcases strdup_ok h hA hc hn with e | ⟨p, s1, f, e, i1, t1, l1, k1, fr⟩
  · rw [e]
    exact .inr ⟨s, os, rfl, h, Keeps.refl s, .inl rfl⟩
  · rw [e, Res.bind_ok]
    have hi1 : i < (os.map f).length := by simpa using hi
    have hx : ((os.map f)[i]).vals.map Prod.snd = os[i].vals.map Prod.snd := by
      have := congrArg (fun l => l[i]?) t1
      simp only [texts, List.getElem?_map, List.getElem?_eq_getElem hi, Option.map_some,
        Option.some.injEq] at this
      simpa using this
    have hl1 : ((os.map f)[i]).vals.length = os[i].vals.length := by simp [l1]
    obtain ⟨s2, e2, i2, k2, _⟩ := setValue_ok i1 hi1 (j := 1) (by omega) fr
    simp only [e2, Res.bind_ok]
    generalize hos : os.map f = os1 at *
    have hset : (os1.set i ⟨os1[i].addr, os1[i].vals.set 1 (p, some nonce)⟩)[i]'(by simpa using hi1) =
        ⟨os1[i].addr, os1[i].vals.set 1 (p, some nonce)⟩ := by simp
    have hrow : (os1[i].vals.set 1 (p, some nonce)).map Prod.snd = (os[i].vals.map Prod.snd).set 1 (some nonce) := by
      rw [List.map_set, hx]
    have tx : texts (os1.set i ⟨os1[i].addr, os1[i].vals.set 1 (p, some nonce)⟩) =
        (texts os).set i ((os[i].vals.map Prod.snd).set 1 (some nonce)) := by
      rw [texts_set, t1, hrow]
    have hg : s2.tags.getD i (0, 0) = (os1[i].addr, os1[i].vals.length) := by
      rw [i2.tags]
      simp [List.getD, List.getElem?_map, hi1, Obj.tag]
    cases target with
    | none =>
        left
        have := truncate_ok i2 (i := i) (by simpa using hi1) (n := 2) (by rw [hset]; simp; omega)
        refine ⟨_, _, rfl, this, k1.trans (k2.trans (fun x hx hn => ⟨rfl, hx⟩)), ?_⟩
        rw [texts_set, tx, List.set_set, hset]
        congr 1
        simp only [List.map_take, hrow, renewed]
        generalize os[i].vals.map Prod.snd = row at *
        have : 2 ≤ row.length := by
          have := congrArg List.length hx
          simp only [List.length_map] at this
          omega
        match row, this with
        | a :: b :: r, _ => simp
    | some t =>
        obtain ⟨c1, c2⟩ := ht t rfl
        simp only [hg]
        have hlen2 : i < (os1.set i ⟨os1[i].addr, os1[i].vals.set 1 (p, some nonce)⟩).length := by simpa using hi1
        by_cases h3 : os1[i].vals.length < 3
        · rw [if_pos h3]
          rcases expand_ok i2 hA hlen2 (by rw [hset]; simp; omega) with g | ⟨s3, os3, g, i3, k3, l3, t3⟩
          · rw [g]
            exact .inr ⟨s2, _, rfl, i2, k1.trans k2, .inr (.inl ⟨tx, by simp⟩)⟩
          · rw [g, Res.bind_ok]
            have hi3 : i < os3.length := by rw [l3]; exact hlen2
            have row3 : os3[i].vals.map Prod.snd = (os[i].vals.map Prod.snd).set 1 (some nonce) ++ [none] := by
              have := congrArg (fun l => l[i]?) t3
              rw [tx, hset, hrow] at this
              simp only [texts, List.getElem?_map, List.getElem?_eq_getElem hi3, Option.map_some] at this
              simpa [hi] using this
            have len3 : os3[i].vals.length = 3 := by
              have := congrArg List.length row3
              simp only [List.length_map, List.length_append, List.length_set, List.length_cons,
                List.length_nil] at this
              omega
            rcases setTarget_ok i3 hA hi3 (by omega) c1 c2 with g4 | ⟨s4, os4, g4, i4, k4, t4⟩
            · simp only [g4]
              refine .inr ⟨s3, os3, rfl, i3, k1.trans (k2.trans k3), .inr (.inr ⟨by omega, by simp, ?_⟩)⟩
              rw [t3, tx, hset, hrow, List.set_set]
            · simp only [g4]
              refine .inl ⟨s4, os4, rfl, i4, k1.trans (k2.trans (k3.trans k4)), ?_⟩
              rw [t4, t3, tx, hset, hrow, List.set_set, List.set_set, row3]
              congr 1
              have h2' : os[i].vals.length = 2 := by omega
              match hv : os[i].vals, h2' with
              | [a, b], _ => simp [renewed]
        · rw [if_neg h3]
          rcases setTarget_ok i2 hA hlen2 (by rw [hset]; simp; omega) c1 c2 with g4 | ⟨s4, os4, g4, i4, k4, t4⟩
          · rw [g4]
            exact .inr ⟨s2, _, rfl, i2, k1.trans k2, .inr (.inl ⟨tx, by simp⟩)⟩
          · rw [g4]
            refine .inl ⟨s4, os4, rfl, i4, k1.trans (k2.trans k4), ?_⟩
            rw [t4, tx, List.set_set, hset, hrow]
            congr 1
            have h3' : 3 ≤ os[i].vals.length := by omega
            match hv : os[i].vals, h3' with
            | a :: b :: c :: r, _ => simp [renewed]

end Nostr.Arena
