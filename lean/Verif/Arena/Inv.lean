import Verif.Arena.Lemmas

/-! # The invariant of the tag memory -/

namespace Nostr.Arena
open Nostr

/-! ## The caller's arguments -/

theorem apart_of {a n lo hi : Nat} (hn : 0 < n) (hlt : lo < hi)
    (h : ∀ x, a ≤ x → x < a + n → x < lo ∨ hi ≤ x) : a + n ≤ lo ∨ hi ≤ a := by
  rcases Nat.lt_or_ge lo (a + n) with h1 | h1
  · rcases Nat.lt_or_ge a hi with h2 | h2
    · rcases Nat.lt_or_ge a lo with h3 | h3
      · have := h lo (by omega) h1; omega
      · have := h a (Nat.le_refl a) (by omega); omega
    · exact .inr h2
  · exact .inl h1

theorem Src.keep {m m' : Mem} {lo hi lo' hi' a : Nat} {qs : List (Nat × Bytes)} (h : Src m lo hi a qs)
    (hlt : lo' < hi')
    (e : ∀ x, x < lo ∨ hi ≤ x → m x ≠ none → m' x = m x ∧ (x < lo' ∨ hi' ≤ x)) : Src m' lo' hi' a qs := by
  induction qs generalizing a with
  | nil => trivial
  | cons q qs ih =>
      obtain ⟨⟨h1, h2, h3, h4, h5, h6⟩, h7⟩ := h
      have k1 : ∀ x, a ≤ x → x < a + 8 → m' x = m x ∧ (x < lo' ∨ hi' ≤ x) :=
        fun x hx hx2 => e x (by omega) (h1.mapped x hx hx2)
      have k2 : ∀ x, q.1 ≤ x → x < q.1 + q.2.length + 1 → m' x = m x ∧ (x < lo' ∨ hi' ≤ x) :=
        fun x hx hx2 => e x (by omega) (h3.mapped x hx hx2)
      refine ⟨⟨h1.frame (fun x a b => (k1 x a b).1), h2, h3.frame (fun x a b => (k2 x a b).1), h4,
        apart_of (by omega) hlt (fun x a b => (k1 x a b).2),
        apart_of (by omega) hlt (fun x a b => (k2 x a (by omega)).2)⟩, ih h7⟩

/-- The storage for some texts. -/
def room : List (Nat × Bytes) → Nat
  | [] => 0
  | q :: qs => q.2.length + 1 + room qs

theorem stringsSize_ok {m : Mem} {lo hi a : Nat} {qs : List (Nat × Bytes)} (h : Src m lo hi a qs) (acc : Nat) :
    stringsSize m a qs.length acc = .ok (acc + room qs) ∨
      stringsSize m a qs.length acc = .err .invalidParam ∧ acc + room qs > sizeMax := by
  induction qs generalizing a acc with
  | nil => left; rfl
  | cons q qs ih =>
      obtain ⟨⟨h1, h2, h3, h4, _, _⟩, h7⟩ := h
      simp only [List.length_cons, stringsSize]
      rw [readPtr_iff.2 h1, Res.bind_ok, if_neg h2, strlen_ok h3 (by omega), Res.bind_ok]
      have hs : sizeMax = 2 ^ 64 - 1 := rfl
      split
      · right
        exact ⟨rfl, by simp only [room]; omega⟩
      · rcases ih h7 (acc + (q.2.length + 1)) with h | h
        · left; rw [h]; simp only [room, Nat.add_assoc]
        · right; rw [h.1]; refine ⟨rfl, ?_⟩
          have := h.2
          simp only [room]; omega

/-- The values of the new tag, with their texts stored one after the other from `st` on. -/
def lay : Nat → List (Nat × Bytes) → List (Nat × Option Bytes)
  | _, [] => []
  | st, q :: qs => (st, some q.2) :: lay (st + (q.2.length + 1)) qs

@[simp] theorem lay_length (st : Nat) (qs : List (Nat × Bytes)) : (lay st qs).length = qs.length := by
  induction qs generalizing st with
  | nil => rfl
  | cons q qs ih => simp [lay, ih]

theorem lay_texts (st : Nat) (qs : List (Nat × Bytes)) : (lay st qs).map Prod.snd = qs.map fun q => some q.2 := by
  induction qs generalizing st with
  | nil => rfl
  | cons q qs ih => simp [lay, ih]

theorem lay_mem {st p : Nat} {s : Bytes} {qs : List (Nat × Bytes)} (h : (p, some s) ∈ lay st qs) :
    st ≤ p ∧ p + (s.length + 1) ≤ st + room qs := by
  induction qs generalizing st with
  | nil => simp [lay] at h
  | cons q qs ih =>
      simp only [lay, List.mem_cons, Prod.mk.injEq, Option.some.injEq] at h
      rcases h with ⟨rfl, rfl⟩ | h
      · simp only [room]; omega
      · have := ih h
        simp only [room]; omega

theorem lay_some {st : Nat} {q : Nat × Option Bytes} {qs : List (Nat × Bytes)} (h : q ∈ lay st qs) :
    ∃ s, q.2 = some s := by
  induction qs generalizing st with
  | nil => simp [lay] at h
  | cons q qs ih =>
      simp only [lay, List.mem_cons] at h
      rcases h with rfl | h
      · exact ⟨_, rfl⟩
      · exact ih h

theorem copyStrings_ok {m : Mem} {lo hi a v st : Nat} {qs : List (Nat × Bytes)} (hs : Src m lo hi a qs)
    (hm : ∀ x, lo ≤ x → x < hi → m x ≠ none) (hv : lo ≤ v) (hvs : v + 8 * qs.length ≤ st)
    (hst : st + room qs ≤ hi) :
    ∃ m', copyStrings m a v st qs.length = .ok m' ∧ PtrsAt m' v ((lay st qs).map Prod.fst) ∧
      (∀ p s, (p, some s) ∈ lay st qs → StrAt m' p s) ∧
      (∀ x, x < v ∨ (v + 8 * qs.length ≤ x ∧ x < st) ∨ st + room qs ≤ x → m' x = m x) ∧
      (∀ x, m' x = none ↔ m x = none) := by
  induction qs generalizing m a v st with
  | nil => exact ⟨m, rfl, trivial, by simp [lay], fun _ _ => rfl, fun _ => Iff.rfl⟩
  | cons q qs ih =>
      obtain ⟨⟨h1, h2, h3, h4, h5, h6⟩, h7⟩ := hs
      simp only [List.length_cons, room] at hvs hst ⊢
      have hsrc : mapped m q.1 (q.2.length + 1) = true :=
        mapped_iff.2 (fun x a b => h3.mapped x a (by omega))
      have hdst : mapped m st (q.2.length + 1) = true :=
        mapped_iff.2 (fun x a b => hm x (by omega) (by omega))
      have hap : st + (q.2.length + 1) ≤ q.1 ∨ q.1 + (q.2.length + 1) ≤ st := by omega
      let m1 : Mem := fun x => if st ≤ x ∧ x < st + (q.2.length + 1) then m (q.1 + (x - st)) else m x
      have e1 : memcpy m st q.1 (q.2.length + 1) = .ok m1 := by
        unfold memcpy
        rw [if_pos]
        simp only [hsrc, hdst, Bool.and_self, Bool.true_and, Bool.or_eq_true, decide_eq_true_eq]
        exact hap
      have f1 : ∀ x, x < st ∨ st + (q.2.length + 1) ≤ x → m1 x = m x := by
        intro x hx
        show (if _ then _ else _) = _
        rw [if_neg (by omega)]
      have n1 : ∀ x, m1 x = none ↔ m x = none := by
        intro x
        show (if _ then _ else _) = none ↔ _
        split
        · rename_i hx
          have a1 := h3.mapped (q.1 + (x - st)) (by omega) (by omega)
          have a2 := hm x (by omega) (by omega)
          simp [a1, a2]
        · rfl
      have s1 : StrAt m1 st q.2 := h3.map (fun k hk => by
        show (if _ then _ else _) = _
        rw [if_pos ⟨by omega, by omega⟩, Nat.add_sub_cancel_left])
      obtain ⟨m2, e2, w1, w2, w3⟩ := writePtr_ok (m := m1) (a := v) (p := st)
        (fun x a b => by rw [Ne, n1]; exact hm x (by omega) (by omega))
      have hs2 : Src m2 lo hi (a + 8) qs := by
        rcases Nat.lt_or_ge lo hi with hl | hl
        · exact h7.keep hl (fun x hx _ => ⟨by rw [w2 x (by omega), f1 x (by omega)], hx⟩)
        · omega
      obtain ⟨m', e, p1, s2, f2, n2⟩ := ih (m := m2) (v := v + 8) (st := st + (q.2.length + 1)) hs2
        (fun x a b => by rw [Ne, w3, n1]; exact hm x a b) (by omega) (by omega) (by omega)
      refine ⟨m', ?_, ⟨?_, p1⟩, ?_, ?_, fun x => by rw [n2, w3, n1]⟩
      · simp only [copyStrings]
        rw [readPtr_iff.2 h1, Res.bind_ok, strlen_ok h3 (by omega), Res.bind_ok, e1, Res.bind_ok, e2, Res.bind_ok]
        exact e
      · exact w1.frame (fun x a b => f2 x (by omega))
      · intro p s hp
        simp only [lay, List.mem_cons, Prod.mk.injEq, Option.some.injEq] at hp
        rcases hp with ⟨rfl, rfl⟩ | hp
        · refine s1.frame (fun x a b => ?_)
          rw [f2 x (by omega), w2 x (by omega)]
        · exact s2 p s hp
      · intro x hx
        rw [f2 x (by omega), w2 x (by omega), f1 x (by omega)]

/-! ## The invariant -/

/-- The text `s` at `p` is one of the values. -/
def Live (os : List Obj) (p : Nat) (s : Bytes) : Prop := ∃ o ∈ os, (p, some s) ∈ o.vals

/-- The block is allocated, the tags are the objects `os`, everything they consist of is inside the used part
of the block, and the arrays of pointers overlap neither each other nor any text. -/
structure Inv (s : St) (os : List Obj) : Prop where
  used : s.used ≤ s.cap
  cap : 1024 ≤ s.cap
  small : s.cap < 2 ^ 63
  base : 0 < s.base
  top : s.base + s.cap ≤ 2 ^ 64
  mapped : ∀ x, s.base ≤ x → x < s.base + s.cap → s.mem x ≠ none
  tags : s.tags = os.map Obj.tag
  arrays : ∀ o ∈ os, PtrsAt s.mem o.addr o.ptrs
  texts : ∀ p t, Live os p t → p ≠ 0 ∧ StrAt s.mem p t
  nulls : ∀ o ∈ os, ∀ q ∈ o.vals, q.2 = none → q.1 = 0
  inArray : ∀ o ∈ os, s.base ≤ o.addr ∧ o.addr + 8 * o.vals.length ≤ s.base + s.used
  inText : ∀ p t, Live os p t → s.base ≤ p ∧ p + (t.length + 1) ≤ s.base + s.used
  away : os.Pairwise Obj.Away
  clear : ∀ o ∈ os, ∀ p t, Live os p t → Apart o.addr (8 * o.vals.length) p (t.length + 1)

/-- The texts of the tags (`none` for a NULL pointer). -/
def texts (os : List Obj) : List (List (Option Bytes)) := os.map fun o => o.vals.map Prod.snd

/-- What the memory outside the block contains stays as it is, and the block does not come to lie there. -/
def Keeps (s s' : St) : Prop :=
  ∀ x, x < s.base ∨ s.base + s.cap ≤ x → s.mem x ≠ none →
    s'.mem x = s.mem x ∧ (x < s'.base ∨ s'.base + s'.cap ≤ x)

theorem Live.move {ob nb : Nat} {os : List Obj} {p : Nat} {t : Bytes} (h : Live (os.map (Obj.move ob nb)) p t) :
    ∃ p0, Live os p0 t ∧ p = moved ob nb p0 := by
  obtain ⟨o, ho, hq⟩ := h
  obtain ⟨o0, ho0, rfl⟩ := List.mem_map.1 ho
  obtain ⟨q, hq0, e⟩ := List.mem_map.1 hq
  simp only [Prod.mk.injEq] at e
  refine ⟨q.1, ⟨o0, ho0, ?_⟩, e.1.symm⟩
  rw [← e.2]; exact hq0

theorem texts_move (ob nb : Nat) (os : List Obj) : texts (os.map (Obj.move ob nb)) = texts os := by
  simp [texts, Obj.move, Function.comp_def]

/-- Enlarging the block keeps the tags. -/
theorem grow_ok {A : Alloc} {s : St} {os : List Obj} (h : Inv s os) (hA : A.Valid) {newCap : Nat}
    (hc : s.cap ≤ newCap) :
    grow A s newCap = .ok none ∨
    ∃ s' f, grow A s newCap = .ok (some s') ∧ Inv s' (os.map f) ∧ texts (os.map f) = texts os ∧
      (∀ o, (f o).vals.length = o.vals.length) ∧
      Keeps s s' ∧ s'.cap = newCap ∧ s'.used = s.used := by
  unfold grow
  cases hA0 : A s newCap with
  | none => left; rfl
  | some nb =>
      right
      obtain ⟨v1, v2, v3, v4⟩ := hA _ _ _ hA0
      have hcap := h.cap
      have hused := h.used
      -- the block after realloc
      have cp : ∀ k < s.cap, realloc s.mem s.base s.cap nb newCap (nb + k) = s.mem (s.base + k) := by
        intro k hk
        unfold realloc
        rw [if_pos ⟨by omega, by omega⟩, if_pos (by omega), Nat.add_sub_cancel_left]
      have mp : ∀ x, nb ≤ x → x < nb + newCap → realloc s.mem s.base s.cap nb newCap x ≠ none := by
        intro x h1 h2
        unfold realloc
        rw [if_pos ⟨h1, h2⟩]
        split
        · exact h.mapped _ (by omega) (by omega)
        · simp
      have out : ∀ x, x < s.base ∨ s.base + s.cap ≤ x → s.mem x ≠ none →
          realloc s.mem s.base s.cap nb newCap x = s.mem x ∧ (x < nb ∨ nb + newCap ≤ x) := by
        intro x hx hn
        have hx2 : x < nb ∨ nb + newCap ≤ x := by
          rcases Nat.lt_or_ge x nb with h1 | h1
          · exact .inl h1
          · rcases Nat.lt_or_ge x (nb + newCap) with h2 | h2
            · rcases v4 x h1 h2 with h3 | h3
              · omega
              · exact absurd h3 hn
            · exact .inr h2
        refine ⟨?_, hx2⟩
        unfold realloc
        rw [if_neg (by omega), if_neg (by omega)]
      by_cases hb : nb = s.base
      · simp only [hb, if_true]
        refine ⟨_, id, rfl, ?_, by simp, fun _ => rfl, fun x hx hn => by
          have := out x hx hn
          rw [hb] at this
          exact this, rfl, rfl⟩
        rw [List.map_id]
        rw [hb] at cp mp v2
        have same : ∀ x, s.base ≤ x → x < s.base + s.cap →
            realloc s.mem s.base s.cap s.base newCap x = s.mem x := by
          intro x h1 h2
          have := cp (x - s.base) (by omega)
          rwa [Nat.add_sub_cancel' h1] at this
        exact {
          used := by show s.used ≤ newCap; omega
          cap := by show 1024 ≤ newCap; omega
          small := v3
          base := h.base
          top := v2
          mapped := mp
          tags := h.tags
          arrays := fun o ho => (h.arrays o ho).frame (fun x a b => same x
            (by have := h.inArray o ho; omega)
            (by have := h.inArray o ho; rw [Obj.ptrs_length] at b; omega))
          texts := fun p t hl => ⟨(h.texts p t hl).1, (h.texts p t hl).2.frame (fun x a b => same x
            (by have := h.inText p t hl; omega) (by have := h.inText p t hl; omega))⟩
          nulls := h.nulls
          inArray := h.inArray
          inText := h.inText
          away := h.away
          clear := h.clear }
      · simp only [hb, if_false]
        have sh : ∀ p, s.base ≤ p → shift s.base nb p = nb + (p - s.base) := by
          intro p hp; unfold shift; omega
        have arr : ∀ o ∈ os, PtrsAt (realloc s.mem s.base s.cap nb newCap) (shift s.base nb o.addr) o.ptrs := by
          intro o ho
          have ha := h.inArray o ho
          refine (h.arrays o ho).map (fun k hk => ?_)
          rw [Obj.ptrs_length] at hk
          rw [sh _ ha.1, show nb + (o.addr - s.base) + k = nb + ((o.addr - s.base) + k) by omega,
            cp _ (by omega)]
          congr 1; omega
        have aw : os.Pairwise fun o o' => (o.move s.base nb).Away (o'.move s.base nb) := by
          have : ∀ o ∈ os, ∀ o' ∈ os, o.Away o' → (o.move s.base nb).Away (o'.move s.base nb) := by
            intro o ho o' ho' hw
            have h1 := h.inArray o ho
            have h2 := h.inArray o' ho'
            simp only [Obj.Away, Apart, Obj.move, List.length_map] at hw ⊢
            rw [sh _ h1.1, sh _ h2.1]
            omega
          exact h.away.imp_of_mem (fun {o o'} ho ho' hw => this o ho o' ho' hw)
        obtain ⟨m', e, p1, f1, n1⟩ := moveTags_ok s.base nb arr aw
        rw [h.tags, e, Res.bind_ok]
        have livep : ∀ p t, Live (os.map (Obj.move s.base nb)) p t →
            ∃ p0, Live os p0 t ∧ p = nb + (p0 - s.base) ∧ s.base ≤ p0 := by
          intro p t hl
          obtain ⟨p0, h0, e0⟩ := hl.move
          have := h.inText p0 t h0
          refine ⟨p0, h0, ?_, this.1⟩
          rw [e0, moved, if_neg (h.texts p0 t h0).1, sh _ this.1]
        refine ⟨_, Obj.move s.base nb, rfl, ?_, texts_move _ _ _, Obj.move_length _ _, ?_, rfl, rfl⟩
        · exact {
            used := by show s.used ≤ newCap; omega
            cap := by show 1024 ≤ newCap; omega
            small := v3
            base := v1
            top := v2
            mapped := fun x a b => by
              show m' x ≠ none
              rw [Ne, n1]; exact mp x a b
            tags := rfl
            arrays := p1
            texts := by
              intro p t hl
              obtain ⟨p0, h0, rfl, hb0⟩ := livep p t hl
              have hi := h.inText p0 t h0
              refine ⟨by omega, ?_⟩
              have : StrAt (realloc s.mem s.base s.cap nb newCap) (nb + (p0 - s.base)) t :=
                (h.texts p0 t h0).2.map (fun k hk => by
                  rw [Nat.add_assoc, cp _ (by omega)]
                  congr 1; omega)
              refine this.frame (fun x a b => f1 x (fun o ho => ?_))
              have c1 := h.clear o ho p0 t h0
              have c2 := h.inArray o ho
              rw [sh _ c2.1]
              simp only [Apart] at c1
              omega
            nulls := by
              intro o ho q hq hn
              obtain ⟨o0, ho0, rfl⟩ := List.mem_map.1 ho
              obtain ⟨q0, hq0, rfl⟩ := List.mem_map.1 hq
              have := h.nulls o0 ho0 q0 hq0 hn
              simp [moved, this]
            inArray := by
              intro o ho
              obtain ⟨o0, ho0, rfl⟩ := List.mem_map.1 ho
              have := h.inArray o0 ho0
              show nb ≤ shift s.base nb o0.addr ∧ shift s.base nb o0.addr + 8 * (o0.move s.base nb).vals.length ≤ nb + s.used
              rw [sh _ this.1, Obj.move_length]
              omega
            inText := by
              intro p t hl
              obtain ⟨p0, h0, rfl, hb0⟩ := livep p t hl
              have := h.inText p0 t h0
              show nb ≤ _ ∧ _ ≤ nb + s.used
              omega
            away := by
              rw [List.pairwise_map]; exact aw
            clear := by
              intro o ho p t hl
              obtain ⟨o0, ho0, rfl⟩ := List.mem_map.1 ho
              obtain ⟨p0, h0, rfl, hb0⟩ := livep p t hl
              have c1 := h.clear o0 ho0 p0 t h0
              have c2 := h.inArray o0 ho0
              rw [Obj.move_length]
              simp only [Apart, Obj.move] at c1 ⊢
              rw [sh _ c2.1]
              omega }
        · intro x hx hn
          have := out x hx hn
          refine ⟨?_, this.2⟩
          show m' x = _
          rw [f1 x (fun o ho => ?_), this.1]
          have c2 := h.inArray o ho
          rw [sh _ c2.1]
          omega

/-! ## Adding a tag -/

theorem Keeps.refl (s : St) : Keeps s s := fun _ hx _ => ⟨rfl, hx⟩

theorem Keeps.src {s s' : St} {os' : List Obj} (h : Keeps s s') (i : Inv s' os') {a : Nat} {qs : List (Nat × Bytes)}
    (hs : Src s.mem s.base (s.base + s.cap) a qs) : Src s'.mem s'.base (s'.base + s'.cap) a qs := by
  have := i.cap
  exact hs.keep (by omega) h

theorem Live.append {os : List Obj} {o : Obj} {p : Nat} {t : Bytes} (h : Live (os ++ [o]) p t) :
    Live os p t ∨ (p, some t) ∈ o.vals := by
  obtain ⟨o', ho', hq⟩ := h
  rcases List.mem_append.1 ho' with h1 | h1
  · exact .inl ⟨o', h1, hq⟩
  · rw [List.mem_singleton] at h1
    subst h1
    exact .inr hq

/-- The sizes stay below `used` bytes when nothing is stored. -/
theorem Inv.more {s : St} {os : List Obj} (h : Inv s os) {n : Nat} (hn : s.used + n ≤ s.cap) :
    Inv { s with used := s.used + n } os :=
  { h with
    used := hn
    inArray := fun o ho => ⟨(h.inArray o ho).1, by
      have := (h.inArray o ho).2
      show _ ≤ s.base + (s.used + n)
      omega⟩
    inText := fun p t hl => ⟨(h.inText p t hl).1, by
      have := (h.inText p t hl).2
      show _ ≤ s.base + (s.used + n)
      omega⟩ }

/-- Appending a tag whose arguments are anywhere but in the free part of the block. -/
theorem append_ok {s : St} {os : List Obj} (h : Inv s os) {a : Nat} {qs : List (Nat × Bytes)}
    (hs : Src s.mem (s.base + s.used) (s.base + s.cap) a qs) (tagsMem : Bool) :
    (∃ s', append tagsMem s a qs.length (room qs) = .ok (s', some .memory) ∧ Inv s' os ∧ Keeps s s' ∧
      (tagsMem = false ∨ s.cap < s.used + (8 * qs.length + room qs))) ∨
    ∃ s' o, append tagsMem s a qs.length (room qs) = .ok (s', none) ∧ Inv s' (os ++ [o]) ∧
      o.vals.map Prod.snd = qs.map (fun q => some q.2) ∧ Keeps s s' ∧ s'.base = s.base ∧ s'.cap = s.cap ∧
      s'.used = s.used + (8 * qs.length + room qs) ∧ o.addr = s.base + s.used ∧
      tagsMem = true ∧ s.used + (8 * qs.length + room qs) ≤ s.cap := by
  have hu := h.used
  unfold append
  by_cases ht : tagsMem = false
  · rw [if_pos ht]
    exact .inl ⟨s, rfl, h, Keeps.refl s, .inl ht⟩
  · rw [if_neg ht]
    by_cases h1 : 8 * qs.length > s.cap - s.used
    · have e1 : alloc s (8 * qs.length) = none := by rw [alloc, if_pos (.inr h1)]
      rw [e1]
      exact .inl ⟨s, rfl, h, Keeps.refl s, .inr (by omega)⟩
    · have e1 : alloc s (8 * qs.length) = some (s.base + s.used, { s with used := s.used + 8 * qs.length }) := by
        rw [alloc, if_neg (by omega)]
      rw [e1]
      have hi1 := h.more (n := 8 * qs.length) (by omega)
      by_cases h2 : room qs > s.cap - (s.used + 8 * qs.length)
      · have e2 : alloc { s with used := s.used + 8 * qs.length } (room qs) = none := by
          rw [alloc, if_pos (.inr h2)]
        simp only [e2]
        exact .inl ⟨_, rfl, hi1, fun x hx _ => ⟨rfl, hx⟩, .inr (by omega)⟩
      · have e2 : alloc { s with used := s.used + 8 * qs.length } (room qs) =
            some (s.base + (s.used + 8 * qs.length),
              { s with used := s.used + 8 * qs.length + room qs }) := by
          rw [alloc, if_neg (by simp only; omega)]
        simp only [e2]
        obtain ⟨m', e, p1, s1, f1, n1⟩ := copyStrings_ok (v := s.base + s.used)
          (st := s.base + (s.used + 8 * qs.length)) hs
          (fun x a b => h.mapped x (by omega) b) (Nat.le_refl _) (by omega) (by omega)
        rw [e, Res.bind_ok]
        right
        have old : ∀ x, x < s.base + s.used → m' x = s.mem x := fun x hx => f1 x (by omega)
        refine ⟨_, ⟨s.base + s.used, lay (s.base + (s.used + 8 * qs.length)) qs⟩, rfl, ?_, lay_texts _ _, ?_, rfl, rfl,
          by simp only; omega, rfl, by simpa using ht, by omega⟩
        · exact {
            used := by simp only; omega
            cap := h.cap
            small := h.small
            base := h.base
            top := h.top
            mapped := fun x a b => by
              show m' x ≠ none
              rw [Ne, n1]; exact h.mapped x a b
            tags := by simp [h.tags, Obj.tag]
            arrays := by
              intro o ho
              rcases List.mem_append.1 ho with h3 | h3
              · refine (h.arrays o h3).frame (fun x a b => old x ?_)
                have := h.inArray o h3
                rw [Obj.ptrs_length] at b
                omega
              · rw [List.mem_singleton] at h3
                subst h3
                exact p1
            texts := by
              intro p t hl
              rcases hl.append with h3 | h3
              · refine ⟨(h.texts p t h3).1, (h.texts p t h3).2.frame (fun x a b => old x ?_)⟩
                have := h.inText p t h3
                omega
              · refine ⟨?_, s1 p t h3⟩
                have := lay_mem h3
                have := h.base
                omega
            nulls := by
              intro o ho q hq hn
              rcases List.mem_append.1 ho with h3 | h3
              · exact h.nulls o h3 q hq hn
              · rw [List.mem_singleton] at h3
                subst h3
                obtain ⟨t, ht⟩ := lay_some hq
                rw [ht] at hn
                exact absurd hn (by simp)
            inArray := by
              intro o ho
              rcases List.mem_append.1 ho with h3 | h3
              · have := h.inArray o h3
                simp only
                omega
              · rw [List.mem_singleton] at h3
                subst h3
                simp only [lay_length]
                omega
            inText := by
              intro p t hl
              rcases hl.append with h3 | h3
              · have := h.inText p t h3
                simp only
                omega
              · have := lay_mem h3
                simp only
                omega
            away := by
              rw [List.pairwise_append]
              refine ⟨h.away, by simp, fun o ho o' ho' => ?_⟩
              rw [List.mem_singleton] at ho'
              subst ho'
              have := h.inArray o ho
              simp only [Obj.Away, Apart, lay_length]
              omega
            clear := by
              intro o ho p t hl
              rcases List.mem_append.1 ho with h3 | h3
              · rcases hl.append with h4 | h4
                · exact h.clear o h3 p t h4
                · have h5 := lay_mem h4
                  have h6 := h.inArray o h3
                  simp only [Apart]
                  omega
              · rw [List.mem_singleton] at h3
                subst h3
                simp only [Apart, lay_length]
                rcases hl.append with h4 | h4
                · have := h.inText p t h4
                  omega
                · have := lay_mem h4
                  omega }
        · intro x hx hn
          exact ⟨f1 x (by omega), hx⟩

theorem doubling_ge {f cap required n : Nat} (h : doubling f cap required = some n) : cap ≤ n ∧ required ≤ n := by
  induction f generalizing cap with
  | zero => simp [doubling] at h
  | succ f ih =>
      unfold doubling at h
      split at h
      · split at h
        · simp at h
        · have := ih h
          omega
      · simp only [Option.some.injEq] at h
        omega

theorem Src.narrow {m : Mem} {lo hi lo' hi' a : Nat} {qs : List (Nat × Bytes)} (h : Src m lo hi a qs)
    (h1 : lo ≤ lo') (h2 : hi' ≤ hi) : Src m lo' hi' a qs := by
  induction qs generalizing a with
  | nil => trivial
  | cons q qs ih =>
      obtain ⟨⟨a1, a2, a3, a4, a5, a6⟩, a7⟩ := h
      exact ⟨⟨a1, a2, a3, a4, by omega, by omega⟩, ih a7⟩

theorem Keeps.trans {s s1 s2 : St} (h1 : Keeps s s1) (h2 : Keeps s1 s2) : Keeps s s2 := by
  intro x hx hn
  obtain ⟨a, b⟩ := h1 x hx hn
  obtain ⟨c, d⟩ := h2 x b (by rw [a]; exact hn)
  exact ⟨by rw [c, a], d⟩

/-- Adding a tag: with the arguments outside the block, the outcome is the tag appended, or an error
with the texts as before. -/
theorem place_ok {A : Alloc} {s : St} {os : List Obj} (h : Inv s os) (hA : A.Valid) {a : Nat}
    {qs : List (Nat × Bytes)} (hs : Src s.mem s.base (s.base + s.cap) a qs) (tagsMem : Bool) :
    (∃ s' os', place A tagsMem s a qs.length (room qs) = .ok (s', some .memory) ∧ Inv s' os' ∧
      texts os' = texts os ∧ Keeps s s') ∨
    ∃ s' os', place A tagsMem s a qs.length (room qs) = .ok (s', none) ∧ Inv s' os' ∧
      texts os' = texts os ++ [qs.map fun q => some q.2] ∧ Keeps s s' := by
  have key : ∀ (s1 : St) (os1 : List Obj), Inv s1 os1 → texts os1 = texts os → Keeps s s1 →
      (∃ s' os', append tagsMem s1 a qs.length (room qs) = .ok (s', some .memory) ∧ Inv s' os' ∧
        texts os' = texts os ∧ Keeps s s') ∨
      ∃ s' os', append tagsMem s1 a qs.length (room qs) = .ok (s', none) ∧ Inv s' os' ∧
        texts os' = texts os ++ [qs.map fun q => some q.2] ∧ Keeps s s' := by
    intro s1 os1 i1 t1 k1
    have hs1 := (k1.src i1 hs).narrow (lo' := s1.base + s1.used) (hi' := s1.base + s1.cap) (by omega) (by omega)
    rcases append_ok i1 hs1 tagsMem with ⟨s', e, i', k', _⟩ | ⟨s', o, e, i', v, k', _⟩
    · exact .inl ⟨s', os1, e, i', t1, k1.trans k'⟩
    · refine .inr ⟨s', os1 ++ [o], e, i', ?_, k1.trans k'⟩
      rw [← t1]
      simp [texts, v]
  unfold place
  split
  · split
    · exact .inl ⟨s, os, rfl, h, rfl, Keeps.refl s⟩
    · rename_i newCap hd
      rcases grow_ok h hA (newCap := newCap) (doubling_ge hd).1 with e | ⟨s1, f, e, i1, t1, _, k1, _⟩
      · rw [e, Res.bind_ok]
        exact .inl ⟨s, os, rfl, h, rfl, Keeps.refl s⟩
      · rw [e, Res.bind_ok]
        exact key s1 _ i1 t1 k1
  · exact key s os h rfl (Keeps.refl s)

/-! ## Reading the tags -/

theorem readValues_ok {m : Mem} {a : Nat} {vs : List (Nat × Bytes)} (h : PtrsAt m a (vs.map Prod.fst))
    (ht : ∀ q ∈ vs, StrAt m q.1 q.2 ∧ q.2.length < 2 ^ 64) : readValues m a vs.length = .ok (vs.map Prod.snd) := by
  induction vs generalizing a with
  | nil => rfl
  | cons q vs ih =>
      have hq := ht q (by simp)
      simp only [List.length_cons, readValues]
      rw [readPtr_iff.2 h.1, Res.bind_ok, readStr_ok hq.1 hq.2, Res.bind_ok,
        ih h.2 (fun q' hq' => ht q' (by simp [hq']))]
      rfl

theorem readTags_ok {m : Mem} {os : List Obj} {ts : List (List Bytes)}
    (ha : ∀ o ∈ os, PtrsAt m o.addr o.ptrs) (ht : ∀ p t, Live os p t → StrAt m p t ∧ t.length < 2 ^ 64)
    (hx : texts os = ts.map (·.map some)) : readTags m (os.map Obj.tag) = .ok ts := by
  induction os generalizing ts with
  | nil =>
      cases ts with
      | nil => rfl
      | cons t ts => simp [texts] at hx
  | cons o os ih =>
      cases ts with
      | nil => simp [texts] at hx
      | cons t ts =>
          simp only [texts, List.map_cons, List.cons.injEq] at hx
          have hv : o.vals = (o.ptrs.zip t).map fun q => (q.1, some q.2) := by
            apply List.ext_getElem
            · have := congrArg List.length hx.1
              simp only [List.length_map] at this
              simp [this]
            · intro i h1 h2
              have hi := congrArg (fun l => l[i]?) hx.1
              have hti : i < t.length := by
                have := congrArg List.length hx.1
                simp only [List.length_map] at this
                omega
              simp only [List.getElem?_map, List.getElem?_eq_getElem h1, List.getElem?_eq_getElem hti,
                Option.map_some, Option.some.injEq] at hi
              apply Prod.ext
              · simp [Obj.ptrs]
              · simp [hi]
          have hlen : o.ptrs.length = t.length := by
            have := congrArg List.length hx.1
            simpa using this
          have e1 : readValues m o.addr o.vals.length = .ok t := by
            have := readValues_ok (m := m) (a := o.addr) (vs := o.ptrs.zip t)
              (by rw [List.map_fst_zip (by omega)]; exact ha o (by simp))
              (fun q hq => ht q.1 q.2 ⟨o, by simp, by
                rw [hv, List.mem_map]
                exact ⟨q, hq, rfl⟩⟩)
            rw [List.map_snd_zip (by omega)] at this
            rw [← this]
            congr 1
            rw [hv]; simp
          show (readValues m o.addr o.vals.length >>= _) = _
          rw [e1, Res.bind_ok, ih (fun o' ho' => ha o' (by simp [ho']))
            (fun p t' ⟨o', ho', hq⟩ => ht p t' ⟨o', by simp [ho'], hq⟩) hx.2]
          rfl

theorem Inv.read {s : St} {os : List Obj} (h : Inv s os) {ts : List (List Bytes)}
    (hx : Arena.texts os = ts.map (·.map some)) : readTags s.mem s.tags = .ok ts := by
  rw [h.tags]
  refine readTags_ok h.arrays (fun p t hl => ⟨(h.texts p t hl).2, ?_⟩) hx
  have h1 := h.inText p t hl
  have h2 := h.top
  have h3 := h.used
  have h4 := h.base
  omega

end Nostr.Arena
