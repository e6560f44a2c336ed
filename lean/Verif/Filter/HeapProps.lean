import Verif.Filter.HeapLemmas

/-! # Property theorems: C30 (clone), C89 (parse) -/

namespace Nostr.Filter.Own
open Nostr Nostr.Heap Nostr.Json

/-- The generic-tag array being filled. -/
structure RFilling (h0 h : Heap) (d : Nat) (rs : List (UInt8 × Option Nat × Nat)) (l : List (UInt8 × List Bytes))
    (o : List Nat) (n : Nat) : Prop where
  ext : Extends h0 h (d :: o)
  arr : h.mem d = some (.recs (rs ++ List.replicate n (0, none, 0)))
  recs : Recs h.mem rs l o

/-- One record is filled in (`x` the new value list, made by a `Step` from `h` to `h'`). -/
theorem RFilling.step {h0 h h' : Heap} {d rs l o n} (f : RFilling h0 h d rs l o (n + 1)) {c : UInt8}
    {x : Option Nat × Nat} {vs own} (he : Extends h h' own) (hx : StrArr h'.mem x.1 x.2 vs own) :
    ∃ h'', h'.mem d = some (.recs (rs ++ List.replicate (n + 1) (0, none, 0))) ∧
      store d (.recs (rs ++ (c, x) :: List.replicate n (0, none, 0))) h' = some ((), h'') ∧
      RFilling h0 h'' d (rs ++ [(c, x)]) (l ++ [(c, vs)]) (o ++ own) n := by
  have hlive : ∀ a ∈ d :: o, h.mem a ≠ none := by
    intro a ha
    rcases List.mem_cons.1 ha with rfl | ha
    · rw [f.arr]; simp
    · exact f.recs.live a ha
  have hkeep := he.keeps hlive
  have hd : h'.mem d = some (.recs (rs ++ List.replicate (n + 1) (0, none, 0))) := by
    rw [hkeep d List.mem_cons_self, f.arr]
  have hext := f.ext.trans he hlive
  have hnd : d ∉ o ++ own := (List.nodup_cons.1 hext.nodup).1
  simp only [List.mem_append, not_or] at hnd
  refine ⟨⟨upd h'.mem d (some (.recs (rs ++ (c, x) :: List.replicate n (0, none, 0)))), h'.tick⟩, hd, ?_, ?_, ?_, ?_⟩
  · simp only [store, hd, Option.isSome_some, if_true]
  · refine ⟨hext.nodup, hext.fresh, fun a ha => ?_⟩
    have : a ≠ d := fun h => ha (by simp [h])
    simp only [upd_other _ _ this]
    exact hext.same a ha
  · simp
  · refine Recs.snoc (f.recs.mono fun a ha => ?_) (hx.mono fun a ha => ?_)
    · simp only [upd_other _ _ (show a ≠ d by rintro rfl; exact hnd.1 ha)]
      exact hkeep a (List.mem_cons_of_mem _ ha)
    · exact upd_other _ _ (show a ≠ d by rintro rfl; exact hnd.2 ha)

/-- A record was left NULL: the array counts only the records before it. -/
theorem RFilling.fail {h0 h h' : Heap} {d rs l o n} (f : RFilling h0 h d rs l o (n + 1)) {c : UInt8}
    (he : Extends h h' []) :
    ∃ h'', h'.mem d = some (.recs (rs ++ List.replicate (n + 1) (0, none, 0))) ∧
      store d (.recs (rs ++ (c, none, 0) :: List.replicate n (0, none, 0))) h' = some ((), h'') ∧
      Extends h0 h'' (d :: o) ∧ RecArr h''.mem (some d, rs.length) l (d :: o) := by
  obtain ⟨h'', h1, h2, h3⟩ := f.step (c := c) (x := (none, 0)) he .null
  refine ⟨h'', h1, h2, by simpa using h3.ext, ?_⟩
  simp only [store, h1, Option.isSome_some, if_true, Option.some.injEq, Prod.mk.injEq, true_and] at h2
  subst h2
  have hnd := (List.nodup_cons.1 f.ext.nodup).1
  refine .arr (rest := (c, none, 0) :: List.replicate n (0, none, 0)) (by simp) (f.recs.mono fun a ha => ?_)
  simp only [upd_other _ _ (show a ≠ d by rintro rfl; exact hnd ha)]
  exact he.same a (by simp)

theorem RFilling.start {h : Heap} {d n t : Nat} (hd : h.mem d = none) :
    RFilling h ⟨upd h.mem d (some (.recs (List.replicate n (0, none, 0)))), t⟩ d [] [] [] n :=
  ⟨⟨by simp, by simpa using hd, fun a ha => upd_other _ _ (by simpa using ha)⟩, by simp, .nil⟩

theorem cloneRecs_ok {A : Alloc} (hA : Fresh A) {h0 : Heap} {d sa : Nat} (rest) :
    ∀ (sr : List (UInt8 × Option Nat × Nat)) (sl so) (pre rs l o) (h : Heap),
    RFilling h0 h d rs l o sr.length → pre.length = rs.length →
    h0.mem sa = some (.recs (pre ++ sr ++ rest)) → Recs h0.mem sr sl so →
    ∃ st k h' v own, cloneRecs A d (some sa) sr.length rs.length h = some ((st, k), h') ∧ Extends h0 h' own ∧
      RecArr h'.mem (some d, k) v own ∧ (st = none → v = l ++ sl) ∧ ∀ e, st = some e → MemErr A h0.mem e := by
  intro sr
  induction sr with
  | nil =>
    intro sl so pre rs l o h f _ _ hs
    cases hs
    exact ⟨none, rs.length, h, l, d :: o, rfl, f.ext, .arr f.arr f.recs, by simp, by simp⟩
  | cons r sr ih =>
    intro sl so pre rs l o h f hpl hsa hs
    cases hs with
    | @cons c r _ vs sl o1 o2 hr ht =>
    have keep : ∀ a, h0.mem a ≠ none → h.mem a = h0.mem a :=
      fun a ha => f.ext.same a fun hm => ha (f.ext.fresh a hm)
    have hsa' : h.mem sa = some (.recs (pre ++ (c, r) :: sr ++ rest)) := by
      rw [keep sa (by rw [hsa]; simp), hsa]
    have hix : (pre ++ (c, r) :: sr ++ rest)[rs.length]? = some (c, r) := by rw [← hpl]; simp
    have hr' : StrPair h.mem r vs o1 := hr.mono fun a ha => keep a (hr.live a ha)
    obtain ⟨st, x, h', v, own, hc, he, hx, hv, hE⟩ := (cloneStrings_step hA hr').ex
    simp only [List.length_cons, cloneRecs, Option.bind_some, hsa', f.arr, hix, M.bind, hc]
    cases st with
    | some e =>
      obtain ⟨hE', hz⟩ := hE e rfl
      have hz : x = (none, 0) := hz
      subst hz
      cases hx
      obtain ⟨h'', hd, hst, hext, hrep⟩ := f.fail (c := c) he
      simp only [hd, List.length_append, List.length_replicate]
      rw [if_pos (by simp)]
      rw [List.replicate_succ, set_pre]
      simp only [hst, Option.bind_some, M.pure]
      exact ⟨_, _, _, _, _, rfl, hext, hrep, by simp, by
        intro e' he'; simp only [Option.some.injEq] at he'; subst he'; exact .back f.ext _ hE'⟩
    | none =>
      have hv := hv rfl
      subst hv
      obtain ⟨h'', hd, hst, hf⟩ := f.step (c := c) he hx
      simp only [hd, List.length_append, List.length_replicate]
      rw [if_pos (by simp)]
      rw [List.replicate_succ, set_pre]
      simp only [hst, Option.bind_some]
      obtain ⟨st, k, h3, w, own', hc', h4⟩ := ih sl o2 (pre ++ [(c, r)]) (rs ++ [(c, x)]) (l ++ [(c, v)])
        (o ++ own) h'' hf (by simp [hpl]) (by rw [hsa]; simp) ht
      rw [List.length_append, List.length_singleton] at hc'
      refine ⟨st, k, h3, w, own', hc', ?_⟩
      simpa using h4

theorem cloneGeneric_step {A : Alloc} (hA : Fresh A) {h : Heap} {src : Option Nat × Nat} {l} {o}
    (hs : RecArr h.mem src l o) : Step (fun _ => True) RecArr (· = l) (MemErr A h.mem) h (cloneGeneric A src h) := by
  cases hs with
  | null => exact ⟨none, (none, 0), h, [], [], rfl, Extends.refl h _, .null, fun _ => rfl, by simp⟩
  | @arr a rs l o rest ha hr =>
    unfold cloneGeneric
    by_cases hz : rs.length = 0
    · have : rs = [] := List.eq_nil_of_length_eq_zero hz
      subst this
      cases hr
      exact ⟨none, (none, 0), h, [], [], rfl, Extends.refl h _, .null, fun _ => rfl, by simp⟩
    · simp only [hz, if_false, M.bind]
      rcases alloc_cases hA (.recs (List.replicate rs.length (0, none, 0))) h with ⟨hf, hc⟩ | ⟨d, hc, hm⟩
      · simp only [hc, Option.bind_some, M.pure]
        exact ⟨_, _, _, [], [], rfl, Extends.refl h _, .null, by simp, by
          intro e he; simp only [Option.some.injEq] at he; exact ⟨⟨he.symm, .here hf⟩, trivial⟩⟩
      · simp only [hc, Option.bind_some, M.bind]
        obtain ⟨st, k, h', v, own, hc', h1, h2, h3, h4⟩ := cloneRecs_ok hA rest rs l o [] [] [] [] _
          (RFilling.start (h := h) (d := d) (n := rs.length) (t := h.tick + 1) hm) rfl (by simpa using ha) hr
        rw [List.length_nil] at hc'
        simp only [hc', Option.bind_some, M.pure]
        exact ⟨_, _, _, v, own, rfl, h1, h2, by simpa using h3, fun e he => ⟨h4 e he, trivial⟩⟩

/-- Outcome of a whole call: either OK with a struct standing for a wanted value in memory of its own, or an error
satisfying `E`, the zeroed struct, and memory as it was. -/
structure Outcome (want : Filter → Prop) (E : RelayErr → Prop) (h0 : Heap)
    (res : Option ((Option RelayErr × HFilter) × Heap)) : Prop where
  ex : ∃ st d h', res = some ((st, d), h') ∧
    ((st = none ∧ ∃ v own, want v ∧ Repr h'.mem d v own ∧ Extends h0 h' own) ∨
     ∃ e, st = some e ∧ E e ∧ d = zero ∧ h'.mem = h0.mem)

theorem cleanup_outcome {want : Filter → Prop} {E : RelayErr → Prop} {h0 h : Heap} {d v own e}
    (hr : Repr h.mem d v own) (he : Extends h0 h own) (hE : E e) : Outcome want E h0 (cleanup e d h) := by
  refine ⟨some e, zero, ⟨h0.mem, h.tick⟩, ?_, .inr ⟨e, rfl, hE, rfl, rfl⟩⟩
  simp only [cleanup, M.bind, freeFilter_ok hr he.nodup, Option.bind_some, M.pure, he.without]

/-- One field of the struct after another. -/
theorem outcome_step {α β : Type} {Z : α → Prop} {R : Mem → α → β → List Nat → Prop} {w : β → Prop}
    {E' E : RelayErr → Prop} {want : Filter → Prop} {h0 h : Heap} {X : M (Option RelayErr × α)}
    {K : Option RelayErr × α → M (Option RelayErr × HFilter)} (hx : Step Z R w E' h (X h))
    (hk : ∀ st x h' v own, Extends h h' own → R h'.mem x v own → (st = none → w v) →
      (∀ e, st = some e → E' e) → Outcome want E h0 (K (st, x) h')) :
    Outcome want E h0 (M.bind X K h) := by
  obtain ⟨st, x, h', v, own, h1, h2, h3, h4, h5⟩ := hx.ex
  simp only [M.bind, h1, Option.bind_some]
  exact hk st x h' v own h2 h3 h4 fun e he => (h5 e he).1

/-- The seven fields in turn, however each is made: the common skeleton of parsing and cloning. -/
def build (X1 X2 X3 X4 X5 X6 : M (Option RelayErr × Option Nat × Nat)) (X7 : M (Option RelayErr × Option Nat))
    (since until_ limit : Int) : M (Option RelayErr × HFilter) :=
    M.bind X1 fun r =>
    let d := { zero with ids := r.2 }
    match r.1 with
    | some e => cleanup e d
    | none =>
    M.bind X2 fun r =>
    let d := { d with authors := r.2 }
    match r.1 with
    | some e => cleanup e d
    | none =>
    M.bind X3 fun r =>
    let d := { d with kinds := r.2 }
    match r.1 with
    | some e => cleanup e d
    | none =>
    M.bind X4 fun r =>
    let d := { d with eTags := r.2 }
    match r.1 with
    | some e => cleanup e d
    | none =>
    M.bind X5 fun r =>
    let d := { d with pTags := r.2 }
    match r.1 with
    | some e => cleanup e d
    | none =>
    M.bind X6 fun r =>
    let d := { d with generic := r.2 }
    match r.1 with
    | some e => cleanup e d
    | none =>
    M.bind X7 fun r =>
    let d := { d with since := since, until_ := until_, limit := limit, search := r.2 }
    match r.1 with
    | some e => cleanup e d
    | none => M.pure (none, d)

/-- A field-making routine works in every extension of the starting heap. -/
def Makes {α β : Type} (Z : α → Prop) (R : Mem → α → β → List Nat → Prop) (w : β → Prop) (E : RelayErr → Prop)
    (h0 : Heap) (X : M (Option RelayErr × α)) : Prop :=
  ∀ h own, Extends h0 h own → Step Z R w E h (X h)

/-- Six string or record fields and what they own. -/
theorem repr_live {m : Mem} {f v own} (h : Repr m f v own) : ∀ a ∈ own, m a ≠ none := by
  cases h with
  | mk h1 h2 h3 h4 h5 h6 h7 =>
    intro a ha
    simp only [List.mem_append] at ha
    rcases ha with h | h | h | h | h | h | h
    · exact h1.live a h
    · exact h2.live a h
    · exact h3.live a h
    · exact h4.live a h
    · exact h5.live a h
    · exact h6.live a h
    · exact h7.live a h

theorem build_outcome {X1 X2 X3 X4 X5 X6 X7} {since until_ limit : Int} {E : RelayErr → Prop}
    {h0 : Heap} {Z1 Z2 Z3 Z4 Z5 Z6 Z7} {W1 W2 W3 W4 W5 W6 W7}
    (m1 : Makes Z1 StrPair W1 E h0 X1) (m2 : Makes Z2 StrPair W2 E h0 X2)
    (m3 : Makes Z3 IntArr W3 E h0 X3) (m4 : Makes Z4 StrPair W4 E h0 X4)
    (m5 : Makes Z5 StrPair W5 E h0 X5) (m6 : Makes Z6 RecArr W6 E h0 X6)
    (m7 : Makes Z7 OptStr W7 E h0 X7) :
    Outcome (fun v => W1 v.ids ∧ W2 v.authors ∧ W3 v.kinds ∧ W4 v.eTags ∧ W5 v.pTags ∧ W6 v.generic ∧
      W7 v.search ∧ v.since = since ∧ v.until_ = until_ ∧ v.limit = limit) E h0 (build X1 X2 X3 X4 X5 X6 X7 since until_ limit h0) := by
  unfold build
  refine outcome_step (m1 h0 [] ⟨.nil, by simp, fun _ _ => rfl⟩) fun st x1 h1 v1 o1 e1 r1 w1 E1 => ?_
  cases st with
  | some e =>
    exact cleanup_outcome (v := { empty with ids := v1 })
      (.mk r1 .null .null .null .null .null .null rfl rfl rfl) (by simpa using e1) (E1 e rfl)
  | none =>
  replace w1 := w1 rfl
  have l1 : ∀ a ∈ o1, h1.mem a ≠ none := r1.live
  refine outcome_step (m2 h1 _ e1) fun st x2 h2 v2 o2 e2 r2 w2 E2 => ?_
  replace r1 := r1.mono (e2.keeps r1.live)
  have E2x := e1.trans e2 l1
  cases st with
  | some e =>
    exact cleanup_outcome (v := { empty with ids := v1, authors := v2 })
      (.mk r1 r2 .null .null .null .null .null rfl rfl rfl) (by simpa [List.append_assoc] using E2x) (E2 e rfl)
  | none =>
  replace w2 := w2 rfl
  have l2 : ∀ a ∈ o1 ++ o2, h2.mem a ≠ none := by
    intro a ha
    simp only [List.mem_append] at ha
    rcases ha with (ha) | ha
    · exact r1.live a ha
    · exact r2.live a ha
  refine outcome_step (m3 h2 _ E2x) fun st x3 h3 v3 o3 e3 r3 w3 E3 => ?_
  replace r1 := r1.mono (e3.keeps r1.live)
  replace r2 := r2.mono (e3.keeps r2.live)
  have E3x := E2x.trans e3 l2
  cases st with
  | some e =>
    exact cleanup_outcome (v := { empty with ids := v1, authors := v2, kinds := v3 })
      (.mk r1 r2 r3 .null .null .null .null rfl rfl rfl) (by simpa [List.append_assoc] using E3x) (E3 e rfl)
  | none =>
  replace w3 := w3 rfl
  have l3 : ∀ a ∈ o1 ++ o2 ++ o3, h3.mem a ≠ none := by
    intro a ha
    simp only [List.mem_append] at ha
    rcases ha with ((ha) | ha) | ha
    · exact r1.live a ha
    · exact r2.live a ha
    · exact r3.live a ha
  refine outcome_step (m4 h3 _ E3x) fun st x4 h4 v4 o4 e4 r4 w4 E4 => ?_
  replace r1 := r1.mono (e4.keeps r1.live)
  replace r2 := r2.mono (e4.keeps r2.live)
  replace r3 := r3.mono (e4.keeps r3.live)
  have E4x := E3x.trans e4 l3
  cases st with
  | some e =>
    exact cleanup_outcome (v := { empty with ids := v1, authors := v2, kinds := v3, eTags := v4 })
      (.mk r1 r2 r3 r4 .null .null .null rfl rfl rfl) (by simpa [List.append_assoc] using E4x) (E4 e rfl)
  | none =>
  replace w4 := w4 rfl
  have l4 : ∀ a ∈ o1 ++ o2 ++ o3 ++ o4, h4.mem a ≠ none := by
    intro a ha
    simp only [List.mem_append] at ha
    rcases ha with (((ha) | ha) | ha) | ha
    · exact r1.live a ha
    · exact r2.live a ha
    · exact r3.live a ha
    · exact r4.live a ha
  refine outcome_step (m5 h4 _ E4x) fun st x5 h5 v5 o5 e5 r5 w5 E5 => ?_
  replace r1 := r1.mono (e5.keeps r1.live)
  replace r2 := r2.mono (e5.keeps r2.live)
  replace r3 := r3.mono (e5.keeps r3.live)
  replace r4 := r4.mono (e5.keeps r4.live)
  have E5x := E4x.trans e5 l4
  cases st with
  | some e =>
    exact cleanup_outcome (v := { empty with ids := v1, authors := v2, kinds := v3, eTags := v4, pTags := v5 })
      (.mk r1 r2 r3 r4 r5 .null .null rfl rfl rfl) (by simpa [List.append_assoc] using E5x) (E5 e rfl)
  | none =>
  replace w5 := w5 rfl
  have l5 : ∀ a ∈ o1 ++ o2 ++ o3 ++ o4 ++ o5, h5.mem a ≠ none := by
    intro a ha
    simp only [List.mem_append] at ha
    rcases ha with ((((ha) | ha) | ha) | ha) | ha
    · exact r1.live a ha
    · exact r2.live a ha
    · exact r3.live a ha
    · exact r4.live a ha
    · exact r5.live a ha
  refine outcome_step (m6 h5 _ E5x) fun st x6 h6 v6 o6 e6 r6 w6 E6 => ?_
  replace r1 := r1.mono (e6.keeps r1.live)
  replace r2 := r2.mono (e6.keeps r2.live)
  replace r3 := r3.mono (e6.keeps r3.live)
  replace r4 := r4.mono (e6.keeps r4.live)
  replace r5 := r5.mono (e6.keeps r5.live)
  have E6x := E5x.trans e6 l5
  cases st with
  | some e =>
    exact cleanup_outcome (v := { empty with ids := v1, authors := v2, kinds := v3, eTags := v4, pTags := v5, generic := v6 })
      (.mk r1 r2 r3 r4 r5 r6 .null rfl rfl rfl) (by simpa [List.append_assoc] using E6x) (E6 e rfl)
  | none =>
  replace w6 := w6 rfl
  have l6 : ∀ a ∈ o1 ++ o2 ++ o3 ++ o4 ++ o5 ++ o6, h6.mem a ≠ none := by
    intro a ha
    simp only [List.mem_append] at ha
    rcases ha with (((((ha) | ha) | ha) | ha) | ha) | ha
    · exact r1.live a ha
    · exact r2.live a ha
    · exact r3.live a ha
    · exact r4.live a ha
    · exact r5.live a ha
    · exact r6.live a ha
  refine outcome_step (m7 h6 _ E6x) fun st x7 h7 v7 o7 e7 r7 w7 E7 => ?_
  replace r1 := r1.mono (e7.keeps r1.live)
  replace r2 := r2.mono (e7.keeps r2.live)
  replace r3 := r3.mono (e7.keeps r3.live)
  replace r4 := r4.mono (e7.keeps r4.live)
  replace r5 := r5.mono (e7.keeps r5.live)
  replace r6 := r6.mono (e7.keeps r6.live)
  have E7x := E6x.trans e7 l6
  cases st with
  | some e =>
    exact cleanup_outcome (v := ⟨v1, v2, v3, v4, v5, v6, since, until_, limit, v7⟩)
      (.mk r1 r2 r3 r4 r5 r6 r7 rfl rfl rfl) (by simpa [List.append_assoc] using E7x) (E7 e rfl)
  | none =>
  replace w7 := w7 rfl
  exact ⟨none, _, h7, rfl, .inl ⟨rfl, ⟨v1, v2, v3, v4, v5, v6, since, until_, limit, v7⟩, _,
    ⟨w1, w2, w3, w4, w5, w6, w7, rfl, rfl, rfl⟩, .mk r1 r2 r3 r4 r5 r6 r7 rfl rfl rfl, by simpa [List.append_assoc] using E7x⟩⟩

theorem clone_eq_build {A : Alloc} {s : HFilter} (hb : badSource s = false) : clone A s =
    build (cloneStrings A s.ids) (cloneStrings A s.authors) (cloneInts A s.kinds) (cloneStrings A s.eTags)
      (cloneStrings A s.pTags) (cloneGeneric A s.generic) (cloneSearch A s.search) s.since s.until_ s.limit := by
  unfold clone build
  rw [hb]
  rfl

theorem StrArr_nonnull {m p n l o} (h : StrArr m p n l o) : (decide (n > 0) && decide (p = none)) = false := by
  cases h <;> simp

theorem IntArr_nonnull {m x l o} (h : IntArr m x l o) :
    (decide (x.2 > 0) && decide (x.1 = none)) = false ∧ x.2 = l.length := by
  cases h <;> simp

theorem RecArr_nonnull {m x l o} (h : RecArr m x l o) : (decide (x.2 > 0) && decide (x.1 = none)) = false := by
  cases h <;> simp

theorem Outcome.imp {W W' : Filter → Prop} {E E' : RelayErr → Prop} {h res} (o : Outcome W E h res)
    (hw : ∀ v, W v → W' v) (he : ∀ e, E e → E' e) : Outcome W' E' h res := by
  obtain ⟨st, d, h', h1, h2⟩ := o.ex
  refine ⟨st, d, h', h1, ?_⟩
  rcases h2 with ⟨h2, v, own, h3, h4⟩ | ⟨e, h2, h3, h4⟩
  · exact .inl ⟨h2, v, own, hw v h3, h4⟩
  · exact .inr ⟨e, h2, he e h3, h4⟩

theorem clone_outcome {A : Alloc} (hA : Fresh A) {h : Heap} {s v own} (hr : Repr h.mem s v own)
    (hk : v.kinds.length ≤ 256) : Outcome (· = v) (MemErr A h.mem) h (clone A s h) := by
  cases hr with
  | mk h1 h2 h3 h4 h5 h6 h7 h8 h9 h10 =>
  have hb : badSource s = false := by
    unfold badSource
    rw [StrArr_nonnull h1, StrArr_nonnull h2, StrArr_nonnull h4, StrArr_nonnull h5, (IntArr_nonnull h3).1,
      RecArr_nonnull h6, (IntArr_nonnull h3).2]
    simp [maxValues, hk]
  rw [clone_eq_build hb]
  refine (build_outcome (E := MemErr A h.mem) (fun h' o e => (cloneStrings_step hA (h1.mono (e.keeps h1.live))).weaken (MemErr.back e))
    (fun h' o e => (cloneStrings_step hA (h2.mono (e.keeps h2.live))).weaken (MemErr.back e))
    (fun h' o e => (cloneInts_step hA (h3.mono (e.keeps h3.live))).weaken (MemErr.back e))
    (fun h' o e => (cloneStrings_step hA (h4.mono (e.keeps h4.live))).weaken (MemErr.back e))
    (fun h' o e => (cloneStrings_step hA (h5.mono (e.keeps h5.live))).weaken (MemErr.back e))
    (fun h' o e => (cloneGeneric_step hA (h6.mono (e.keeps h6.live))).weaken (MemErr.back e))
    (fun h' o e => (cloneSearch_step hA (h7.mono (e.keeps h7.live))).weaken (MemErr.back e))).imp ?_ fun _ he => he
  rintro ⟨⟩ ⟨rfl, rfl, rfl, rfl, rfl, rfl, rfl, h, h', h''⟩
  simp only at h h' h''
  cases v
  simp_all

/-! ## Parsing -/

/-- Errors of the parser: out of memory, or the document is rejected. -/
def ParseErr (A : Alloc) (m : Mem) (bad : Prop) (e : RelayErr) : Prop := MemErr A m e ∨ (e = .invalidJson ∧ bad)

theorem fillStrings_step {A : Alloc} (hA : Fresh A) (h : Heap) (j : Option Json) :
    Step (· = (none, 0)) StrPair (fun l => parseStrings j = .ok l)
      (ParseErr A h.mem (parseStrings j = .err (.relay .invalidJson))) h (fillStrings A (none, 0) j h) := by
  unfold fillStrings parseStrings
  cases j.bind asArr with
  | none => exact ⟨none, (none, 0), h, [], [], rfl, Extends.refl h _, .null, fun _ => rfl, by simp⟩
  | some l =>
    simp only
    by_cases hz : l.length = 0
    · have : l = [] := List.eq_nil_of_length_eq_zero hz
      subst this
      exact ⟨none, (none, 0), h, [], [], rfl, Extends.refl h _, .null, fun _ => rfl, by simp⟩
    · simp only [hz, if_false]
      by_cases hb : l.length > maxValues
      · simp only [hb, if_true]
        exact ⟨_, _, h, [], [], rfl, Extends.refl h _, .null, by simp, by
          intro e he; simp only [Option.some.injEq] at he; exact ⟨.inr ⟨he.symm, by trivial⟩, rfl⟩⟩
      · simp only [hb, if_false, M.bind]
        rcases alloc_cases hA (.ptrs (List.replicate l.length none)) h with ⟨hf, hc⟩ | ⟨d, hc, hm⟩
        · simp only [hc, Option.bind_some, M.pure]
          exact ⟨_, _, _, [], [], rfl, Extends.refl h _, .null, by simp, by
            intro e he; simp only [Option.some.injEq] at he; exact ⟨.inl ⟨he.symm, .here hf⟩, rfl⟩⟩
        · simp only [hc, Option.bind_some, M.bind]
          obtain ⟨b, h', h3, h4⟩ := fillLoop_ok hA (l.filterMap asStr) [] [] l.length _
            (Filling.start (h := h) (d := d) (n := l.length) (t := h.tick + 1) hm) (List.length_filterMap_le _ _)
          rw [List.length_nil] at h3
          rw [h3]
          simp only [Option.bind_some]
          rcases h4 with ⟨rfl, hf, hm'⟩ | ⟨rfl, qs, hq⟩
          · obtain ⟨m', t'⟩ := h'
            simp only at hm'
            subst hm'
            simp only [Bool.false_eq_true, if_false, M.pure]
            exact ⟨_, _, _, [], [], rfl, Extends.refl h _, .null, by simp, by
              intro e he; simp only [Option.some.injEq] at he; exact ⟨.inl ⟨he.symm, hf⟩, rfl⟩⟩
          · simp only [if_true, M.pure]
            simp only [List.nil_append] at hq
            refine ⟨_, _, _, l.filterMap asStr, d :: qs, rfl, hq.ext, ?_, fun _ => rfl, by simp⟩
            have : StrArr h'.mem (some d) qs.length (l.filterMap asStr) (d :: qs) := .arr hq.arr hq.strs
            rw [hq.strs.length] at this
            exact this

theorem fillInts_step {A : Alloc} (hA : Fresh A) (real) (h : Heap) (j : Option Json) :
    Step (· = (none, 0)) IntArr (fun l => parseInts real j = .ok l)
      (ParseErr A h.mem (parseInts real j = .err (.relay .invalidJson))) h (fillInts A real j h) := by
  unfold fillInts parseInts
  cases j.bind asArr with
  | none => exact ⟨none, (none, 0), h, [], [], rfl, Extends.refl h _, .null, fun _ => rfl, by simp⟩
  | some l =>
    simp only
    by_cases hz : l.length = 0
    · have : l = [] := List.eq_nil_of_length_eq_zero hz
      subst this
      exact ⟨none, (none, 0), h, [], [], rfl, Extends.refl h _, .null, fun _ => rfl, by simp⟩
    · simp only [hz, if_false]
      by_cases hb : l.length > maxValues
      · simp only [hb, if_true]
        exact ⟨_, _, h, [], [], rfl, Extends.refl h _, .null, by simp, by
          intro e he; simp only [Option.some.injEq] at he; exact ⟨.inr ⟨he.symm, by trivial⟩, rfl⟩⟩
      · simp only [hb, if_false, M.bind]
        rcases alloc_cases hA (.ints ((l.filterMap asNum).map (valueint real) ++
          List.replicate (l.length - (l.filterMap asNum).length) 0)) h with ⟨hf, hc⟩ | ⟨d, hc, hm⟩
        · simp only [hc, Option.bind_some, M.pure]
          exact ⟨_, _, _, [], [], rfl, Extends.refl h _, .null, by simp, by
            intro e he; simp only [Option.some.injEq] at he; exact ⟨.inl ⟨he.symm, .here hf⟩, rfl⟩⟩
        · simp only [hc, Option.bind_some, M.pure]
          refine ⟨_, _, _, (l.filterMap asNum).map (valueint real), [d], rfl, ⟨by simp, by simpa using hm, ?_⟩, ?_,
            fun _ => rfl, by simp⟩
          · intro b hb
            simp only [List.mem_singleton] at hb
            simp only [upd_other _ _ hb]
          · have := IntArr.arr (m := upd h.mem d (some (.ints ((l.filterMap asNum).map (valueint real) ++
              List.replicate (l.length - (l.filterMap asNum).length) 0)))) (a := d) (by simp; rfl)
            rw [List.length_map] at this
            exact this

/-- The values of the generic tags, member by member. -/
def parseMembers : List (UInt8 × Json) → Res (List (UInt8 × List Bytes))
  | [] => .ok []
  | (c, v) :: ms => parseStrings (some v) >>= fun vs => parseMembers ms >>= fun r => .ok ((c, vs) :: r)

theorem parseMembers_eq (ms : List (Bytes × Json)) : parseMembers (genericMembers ms) = parseGeneric ms := by
  induction ms with
  | nil => rfl
  | cons m ms ih =>
    obtain ⟨k, v⟩ := m
    unfold genericMembers at *
    cases hk : genericLetter k with
    | none => simp only [List.filterMap_cons, hk, Option.map_none, parseGeneric, ih]
    | some c => simp only [List.filterMap_cons, hk, Option.map_some, parseGeneric, parseMembers, ih]

theorem fillRecs_ok {A : Alloc} (hA : Fresh A) {h0 : Heap} {d : Nat} :
    ∀ (ms : List (UInt8 × Json)) (rs l o) (h : Heap), RFilling h0 h d rs l o ms.length →
    ∃ st k h' v own, fillRecs A d ms rs.length h = some ((st, k), h') ∧ Extends h0 h' own ∧
      RecArr h'.mem (some d, k) v own ∧ (st = none → ∃ w, parseMembers ms = .ok w ∧ v = l ++ w) ∧
      ∀ e, st = some e → ParseErr A h0.mem (parseMembers ms = .err (.relay .invalidJson)) e := by
  intro ms
  induction ms with
  | nil =>
    intro rs l o h f
    exact ⟨none, rs.length, h, l, d :: o, rfl, f.ext, .arr f.arr f.recs, fun _ => ⟨[], rfl, by simp⟩, by simp⟩
  | cons m ms ih =>
    obtain ⟨c, j⟩ := m
    intro rs l o h f
    rw [List.length_cons] at f
    obtain ⟨st, x, h', v, own, hc, he, hx, hv, hE⟩ := (fillStrings_step hA h (some j)).ex
    have hix : (rs ++ List.replicate (ms.length + 1) ((0 : UInt8), (none : Option Nat), 0))[rs.length]? =
        some (0, none, 0) := by simp
    simp only [fillRecs, f.arr, hix, M.bind, hc, Option.bind_some]
    cases st with
    | some e =>
      obtain ⟨hE', hz⟩ := hE e rfl
      have hz : x = (none, 0) := hz
      subst hz
      cases hx
      obtain ⟨h'', hd, hst, hext, hrep⟩ := f.fail (c := c) he
      simp only [hd]
      rw [List.replicate_succ, set_pre]
      simp only [hst, Option.bind_some, M.pure]
      refine ⟨_, _, _, _, _, rfl, hext, hrep, by simp, ?_⟩
      intro e' he'
      simp only [Option.some.injEq] at he'
      subst he'
      rcases hE' with h | ⟨h, h'⟩
      · exact .inl (.back f.ext _ h)
      · exact .inr ⟨h, by simp only [parseMembers, h', Res.bind_err]⟩
    | none =>
      have hv := hv rfl
      obtain ⟨h'', hd, hst, hf⟩ := f.step (c := c) he hx
      simp only [hd]
      rw [List.replicate_succ, set_pre]
      simp only [hst, Option.bind_some]
      obtain ⟨st, k, h3, w, own', hc', h4, h5, h6, h7⟩ := ih (rs ++ [(c, x)]) (l ++ [(c, v)]) (o ++ own) h'' hf
      rw [List.length_append, List.length_singleton] at hc'
      refine ⟨st, k, h3, w, own', hc', h4, h5, ?_, ?_⟩
      · intro hst
        obtain ⟨w', h8, h9⟩ := h6 hst
        exact ⟨(c, v) :: w', by simp only [parseMembers, hv, Res.bind_ok, h8], by simpa using h9⟩
      · intro e he
        rcases h7 e he with h | ⟨h, h'⟩
        · exact .inl h
        · exact .inr ⟨h, by simp only [parseMembers, hv, Res.bind_ok, h', Res.bind_err]⟩

theorem fillGeneric_step {A : Alloc} (hA : Fresh A) (h : Heap) (ms : List (UInt8 × Json)) :
    Step (fun _ => True) RecArr (fun l => parseMembers ms = .ok l)
      (ParseErr A h.mem (parseMembers ms = .err (.relay .invalidJson))) h (fillGeneric A ms h) := by
  unfold fillGeneric
  by_cases hz : ms.length = 0
  · have : ms = [] := List.eq_nil_of_length_eq_zero hz
    subst this
    exact ⟨none, (none, 0), h, [], [], rfl, Extends.refl h _, .null, fun _ => rfl, by simp⟩
  · simp only [hz, if_false, M.bind]
    rcases alloc_cases hA (.recs (List.replicate ms.length (0, none, 0))) h with ⟨hf, hc⟩ | ⟨d, hc, hm⟩
    · simp only [hc, Option.bind_some, M.pure]
      exact ⟨_, _, _, [], [], rfl, Extends.refl h _, .null, by simp, by
        intro e he; simp only [Option.some.injEq] at he; exact ⟨.inl ⟨he.symm, .here hf⟩, trivial⟩⟩
    · simp only [hc, Option.bind_some, M.bind]
      obtain ⟨st, k, h', v, own, hc', h1, h2, h3, h4⟩ := fillRecs_ok hA ms [] [] [] _
        (RFilling.start (h := h) (d := d) (n := ms.length) (t := h.tick + 1) hm)
      rw [List.length_nil] at hc'
      simp only [hc', Option.bind_some, M.pure]
      refine ⟨_, _, _, v, own, rfl, h1, h2, ?_, fun e he => ⟨h4 e he, trivial⟩⟩
      intro hst
      obtain ⟨w, h5, h6⟩ := h3 hst
      simp only [List.nil_append] at h6
      rw [h6]; exact h5

theorem fillSearch_step {A : Alloc} (hA : Fresh A) (h : Heap) (j : Option Json) :
    Step (· = none) OptStr (fun l => parseSearch j = .ok l)
      (ParseErr A h.mem (parseSearch j = .err (.relay .invalidJson))) h (fillSearch A j h) := by
  unfold fillSearch parseSearch
  cases j.bind asStr with
  | none => exact ⟨none, none, h, none, [], rfl, Extends.refl h _, .null, fun _ => rfl, by simp⟩
  | some s =>
    simp only
    by_cases hb : s.length > 65536
    · simp only [hb, if_true]
      exact ⟨_, _, h, none, [], rfl, Extends.refl h _, .null, by simp, by
        intro e he; simp only [Option.some.injEq] at he; exact ⟨.inr ⟨he.symm, by trivial⟩, rfl⟩⟩
    · simp only [hb, if_false, M.bind]
      rcases alloc_cases hA (.str s) h with ⟨hf, hc⟩ | ⟨d, hc, hm⟩
      · simp only [hc, Option.bind_some, M.pure]
        exact ⟨_, _, _, none, [], rfl, Extends.refl h _, .null, by simp, by
          intro e he; simp only [Option.some.injEq] at he; exact ⟨.inl ⟨he.symm, .here hf⟩, rfl⟩⟩
      · simp only [hc, Option.bind_some, M.pure]
        refine ⟨_, _, _, some s, [d], rfl, ⟨by simp, by simpa using hm, ?_⟩, .str (by simp), fun _ => rfl, by simp⟩
        intro b hb
        simp only [List.mem_singleton] at hb
        simp only [upd_other _ _ hb]

theorem ParseErr.imp {A : Alloc} {h0 h1 : Heap} {o} (x : Extends h0 h1 o) {p q : Prop} (h : p → q) (e) :
    ParseErr A h1.mem p e → ParseErr A h0.mem q e := by
  rintro (h' | ⟨h', h''⟩)
  · exact .inl (.back x _ h')
  · exact .inr ⟨h', h h''⟩

/-- Some part of the document is rejected. -/
def Rejected (real : Bytes → Int) (root : Json) : Prop := ∀ f, ofTree real root ≠ .ok f

theorem Rejected.of {real root} {α : Type} {x : Res α} (hx : x = .err (.relay .invalidJson))
    (h : ∀ f, ofTree real root = .ok f → ∃ y, x = .ok y) : Rejected real root := by
  intro f hf
  obtain ⟨y, hy⟩ := h f hf
  rw [hx] at hy
  exact absurd hy (by simp)

theorem ofTree_parts {real root f} (h : ofTree real root = .ok f) :
    parseStrings (Json.get root (c!"ids")) = .ok f.ids ∧ parseStrings (Json.get root (c!"authors")) = .ok f.authors ∧
    parseInts real (Json.get root (c!"kinds")) = .ok f.kinds ∧ parseStrings (Json.get root (c!"#e")) = .ok f.eTags ∧
    parseStrings (Json.get root (c!"#p")) = .ok f.pTags ∧ parseGeneric (members root) = .ok f.generic ∧
    parseSearch (Json.get root (c!"search")) = .ok f.search := by
  unfold ofTree at h
  simp only [Res.bind_eq_ok] at h
  obtain ⟨a, ha, b, hb, c, hc, d, hd, e, he, g, hg, s, hs, h⟩ := h
  simp only [Res.ok.injEq] at h
  subst h
  exact ⟨ha, hb, hc, hd, he, hg, hs⟩

theorem parse_outcome {A : Alloc} (hA : Fresh A) (real root) (h : Heap) :
    Outcome (fun v => ofTree real root = .ok v) (ParseErr A h.mem (Rejected real root)) h (parse A real root h) := by
  have hb : parse A real root = build (fillStrings A (none, 0) (Json.get root (c!"ids")))
      (fillStrings A (none, 0) (Json.get root (c!"authors"))) (fillInts A real (Json.get root (c!"kinds")))
      (fillStrings A (none, 0) (Json.get root (c!"#e"))) (fillStrings A (none, 0) (Json.get root (c!"#p")))
      (fillGeneric A (genericMembers (members root))) (fillSearch A (Json.get root (c!"search")))
      (parseTime real (Json.get root (c!"since"))) (parseTime real (Json.get root (c!"until")))
      (parseLimit real (Json.get root (c!"limit"))) := rfl
  rw [hb]
  refine (build_outcome (E := ParseErr A h.mem (Rejected real root))
    (fun h' o e => (fillStrings_step hA h' _).weaken (ParseErr.imp e fun x => .of x fun f hf => ⟨_, (ofTree_parts hf).1⟩))
    (fun h' o e => (fillStrings_step hA h' _).weaken (ParseErr.imp e fun x => .of x fun f hf => ⟨_, (ofTree_parts hf).2.1⟩))
    (fun h' o e => (fillInts_step hA real h' _).weaken
      (ParseErr.imp e fun x => .of x fun f hf => ⟨_, (ofTree_parts hf).2.2.1⟩))
    (fun h' o e => (fillStrings_step hA h' _).weaken
      (ParseErr.imp e fun x => .of x fun f hf => ⟨_, (ofTree_parts hf).2.2.2.1⟩))
    (fun h' o e => (fillStrings_step hA h' _).weaken
      (ParseErr.imp e fun x => .of x fun f hf => ⟨_, (ofTree_parts hf).2.2.2.2.1⟩))
    (fun h' o e => (fillGeneric_step hA h' _).weaken
      (ParseErr.imp e fun x => .of x fun f hf => ⟨_, (parseMembers_eq _).trans (ofTree_parts hf).2.2.2.2.2.1⟩))
    (fun h' o e => (fillSearch_step hA h' _).weaken
      (ParseErr.imp e fun x => .of x fun f hf => ⟨_, (ofTree_parts hf).2.2.2.2.2.2⟩))).imp ?_ fun _ he => he
  rintro ⟨ids, au, ki, es, ps, gs, si, un, li, se⟩ ⟨h1, h2, h3, h4, h5, h6, h7, rfl, rfl, rfl⟩
  rw [parseMembers_eq] at h6
  unfold ofTree
  simp only at h1 h2 h3 h4 h5 h6 h7
  rw [h1, h2, h3, h4, h5, h6, h7]
  rfl

end Nostr.Filter.Own

namespace Nostr.Filter.Props
open Nostr Nostr.Heap Nostr.Json Nostr.Filter.Own

/-! ## C30 -/

/-- C30: for every allocator, wherever it fails: cloning never misbehaves; it either succeeds, giving an equal
filter made of new blocks only (none live before, all distinct, everything else unchanged, so the source is
intact and shares nothing), or reports that memory ran out, hands back an empty filter and leaves memory exactly
as it was.  (A source with more than 256 kinds, which parsing cannot produce, is refused.) -/
theorem C30_clone {A : Alloc} (hA : Fresh A) {h : Heap} {src : HFilter} {v : Filter} {own : List Nat}
    (hr : Repr h.mem src v own) (hk : v.kinds.length ≤ 256) :
    ∃ st dst h', clone A src h = some ((st, dst), h') ∧
      ((st = none ∧ ∃ own', Repr h'.mem dst v own' ∧ own'.Nodup ∧ (∀ a ∈ own', h.mem a = none) ∧
          ∀ a, a ∉ own' → h'.mem a = h.mem a) ∨
       (st = some .memory ∧ Refused A h.mem ∧ dst = zero ∧ h'.mem = h.mem)) := by
  obtain ⟨st, d, h', h1, h2⟩ := (clone_outcome hA hr hk).ex
  refine ⟨st, d, h', h1, ?_⟩
  rcases h2 with ⟨h2, v, own', rfl, h3, h4⟩ | ⟨e, rfl, ⟨rfl, h3⟩, h4, h5⟩
  · exact .inl ⟨h2, own', h3, h4.nodup, h4.fresh, h4.same⟩
  · exact .inr ⟨rfl, h3, h4, h5⟩

/-- C30: while memory lasts, cloning succeeds. -/
theorem C30_enough_memory {A : Alloc} (hA : Fresh A) {h : Heap} {src : HFilter} {v : Filter} {own : List Nat}
    (hr : Repr h.mem src v own) (hk : v.kinds.length ≤ 256) (hm : ¬ Refused A h.mem) :
    ∃ dst h' own', clone A src h = some ((none, dst), h') ∧ Repr h'.mem dst v own' := by
  obtain ⟨st, dst, h', h1, ⟨rfl, own', h2, -⟩ | ⟨-, h2, -⟩⟩ := C30_clone hA hr hk
  · exact ⟨dst, h', own', h1, h2⟩
  · exact absurd h2 hm

/-- C30: a source with too many kinds is refused without touching memory. -/
theorem C30_refused {A : Alloc} {h : Heap} {src : HFilter} (hk : src.kinds.2 > 256) :
    clone A src h = some ((some .invalidJson, zero), h) := by
  have : badSource src = true := by simp [badSource, maxValues, hk]
  simp [clone, this, M.pure]

/-- C30: freeing a filter releases exactly its own blocks and never misbehaves. -/
theorem C30_free {h : Heap} {f : HFilter} {v : Filter} {own : List Nat} (hr : Repr h.mem f v own)
    (hn : own.Nodup) : ∃ h', freeFilter f h = some (zero, h') ∧ (∀ a ∈ own, h'.mem a = none) ∧
      ∀ a, a ∉ own → h'.mem a = h.mem a :=
  ⟨_, freeFilter_ok hr hn, fun a ha => by simp [without, ha], fun a ha => without_other _ ha⟩

/-- C30: cloning and then freeing either one leaves the other intact; freeing the clone restores memory. -/
theorem C30_independent {A : Alloc} (hA : Fresh A) {h h' : Heap} {src dst : HFilter} {v : Filter} {own : List Nat}
    (hr : Repr h.mem src v own) (hn : own.Nodup) (hk : v.kinds.length ≤ 256)
    (hc : clone A src h = some ((none, dst), h')) :
    (∃ h1, freeFilter dst h' = some (zero, h1) ∧ h1.mem = h.mem) ∧
    ∃ h2 own', freeFilter src h' = some (zero, h2) ∧ Repr h2.mem dst v own' ∧ own'.Nodup := by
  obtain ⟨st, d, h'', h1, h2⟩ := C30_clone hA hr hk
  rw [hc] at h1
  simp only [Option.some.injEq, Prod.mk.injEq] at h1
  obtain ⟨⟨rfl, rfl⟩, rfl⟩ := h1
  rcases h2 with ⟨-, own', h3, h4, h5, h6⟩ | ⟨h2, -⟩
  · refine ⟨⟨_, freeFilter_ok h3 h4, without_fresh h5 h6⟩, ?_⟩
    have dis : ∀ a ∈ own, a ∉ own' := fun a ha hb => repr_live hr a ha (h5 a hb)
    have hr' : Repr h'.mem src v own := by
      cases hr with
      | mk r1 r2 r3 r4 r5 r6 r7 r8 r9 r10 =>
        refine .mk (r1.mono ?_) (r2.mono ?_) (r3.mono ?_) (r4.mono ?_) (r5.mono ?_) (r6.mono ?_) (r7.mono ?_) r8 r9 r10
        all_goals
          intro a ha
          exact h6 a (dis a (by simp [ha]))
    refine ⟨_, own', freeFilter_ok hr' hn, ?_, h4⟩
    cases h3 with
    | mk r1 r2 r3 r4 r5 r6 r7 r8 r9 r10 =>
      refine .mk (r1.mono ?_) (r2.mono ?_) (r3.mono ?_) (r4.mono ?_) (r5.mono ?_) (r6.mono ?_) (r7.mono ?_) r8 r9 r10
      all_goals
        intro a ha
        exact without_other _ fun hb => dis a hb (by simp [ha])
  · simp at h2

/-- A filter in memory: kinds [1], one id "ab", `#t` with values "x", "y". -/
def memSample : Mem := fun a =>
  match a with
  | 10 => some (.ptrs [some 11]) | 11 => some (.str (c!"ab")) | 12 => some (.ints [1, 0])
  | 13 => some (.recs [(0x74, some 14, 2)]) | 14 => some (.ptrs [some 15, some 16])
  | 15 => some (.str (c!"x")) | 16 => some (.str (c!"y")) | _ => none

def structSample : HFilter := ⟨(some 10, 1), (none, 0), (some 12, 1), (none, 0), (none, 0), (some 13, 1), 5, 0, 0, none⟩

def valueSample : Filter := { Filter.empty with ids := [c!"ab"], kinds := [1], generic := [(0x74, [c!"x", c!"y"])], since := 5 }

example : ∃ own, Repr memSample structSample valueSample own ∧ own.Nodup :=
  ⟨_, .mk (.arr (ps := [11]) (rest := []) rfl (.cons rfl .nil)) .null (IntArr.arr (a := 12) (l := [1]) (rest := [0]) rfl) .null .null
    (RecArr.arr (a := 13) (rs := [(0x74, some 14, 2)]) (rest := []) rfl (.cons (.arr (a := 14) (ps := [15, 16]) (rest := []) rfl (.cons rfl (.cons rfl .nil))) .nil)) .null
    rfl rfl rfl, by decide⟩

/-- An allocator handing out 100, 101, … and failing at call `k`. -/
def failAt (k : Nat) : Alloc := fun m n => if n = k ∨ m (100 + n) ≠ none then none else some (100 + n)

example (k : Nat) : Fresh (failAt k) := by
  intro m n a h
  unfold failAt at h
  split at h
  · simp at h
  · rename_i hn
    simp only [Option.some.injEq] at h
    subst h
    simp only [not_or, ne_eq, Decidable.not_not] at hn
    exact hn.2

/-- The clone makes seven allocations here; a failure at the sixth is reported. -/
example : ((clone (failAt 99) structSample ⟨memSample, 0⟩).map fun r => (r.1.1, r.2.tick)) = some (none, 7) ∧
    ((clone (failAt 5) structSample ⟨memSample, 0⟩).map fun r => (r.1, r.2.tick)) = some ((some .memory, zero), 6) := by
  decide +kernel

/-! ## C89 -/

/-- C89: for every document and every allocator, wherever it fails: parsing never misbehaves; it either succeeds
with a struct standing for exactly the filter the document describes, made of new blocks only, or reports an error
(out of memory only if the allocator failed, rejected only if the document is), hands back an empty filter and
leaves memory exactly as it was. -/
theorem C89_parse {A : Alloc} (hA : Fresh A) (real : Bytes → Int) (root : Json) (h : Heap) :
    ∃ st dst h', Own.parse A real root h = some ((st, dst), h') ∧
      ((st = none ∧ ∃ v own, ofTree real root = .ok v ∧ Repr h'.mem dst v own ∧ own.Nodup ∧
          (∀ a ∈ own, h.mem a = none) ∧ ∀ a, a ∉ own → h'.mem a = h.mem a) ∨
       (st = some .memory ∧ Refused A h.mem ∧ dst = zero ∧ h'.mem = h.mem) ∨
       (st = some .invalidJson ∧ (∀ f, ofTree real root ≠ .ok f) ∧ dst = zero ∧ h'.mem = h.mem)) := by
  obtain ⟨st, d, h', h1, h2⟩ := (parse_outcome hA real root h).ex
  refine ⟨st, d, h', h1, ?_⟩
  rcases h2 with ⟨h2, v, own', h0, h3, h4⟩ | ⟨e, rfl, ⟨rfl, h3⟩ | ⟨rfl, h3⟩, h4, h5⟩
  · exact .inl ⟨h2, v, own', h0, h3, h4.nodup, h4.fresh, h4.same⟩
  · exact .inr (.inl ⟨rfl, h3, h4, h5⟩)
  · exact .inr (.inr ⟨rfl, h3, h4, h5⟩)

/-- C89: while memory lasts, a document that describes a filter is read. -/
theorem C89_enough_memory {A : Alloc} (hA : Fresh A) {real : Bytes → Int} {root : Json} {h : Heap} {v : Filter}
    (hv : ofTree real root = .ok v) (hm : ¬ Refused A h.mem) :
    ∃ dst h' own, Own.parse A real root h = some ((none, dst), h') ∧ Repr h'.mem dst v own := by
  obtain ⟨st, dst, h', h1, ⟨rfl, w, own, h2, h3, -⟩ | ⟨-, h2, -⟩ | ⟨-, h2, -⟩⟩ := C89_parse hA real root h
  · rw [hv] at h2
    simp only [Res.ok.injEq] at h2
    subst h2
    exact ⟨dst, h', own, h1, h3⟩
  · exact absurd h2 hm
  · exact absurd hv (h2 v)

/-- Memory lasts with `generous` when finitely many blocks are live. -/
example : Fresh generous ∧ ¬ Refused generous memSample ∧ ¬ Refused generous (fun _ => none) :=
  ⟨generous_fresh, generous_never (live := [10, 11, 12, 13, 14, 15, 16, 17]) (fun a ha => by
    simp only [List.mem_cons, List.not_mem_nil, or_false, not_or] at ha
    simp [memSample, ha]), generous_never (live := []) fun _ _ => rfl⟩

/-- C89: parsing and then freeing restores memory. -/
theorem C89_parse_free {A : Alloc} (hA : Fresh A) (real : Bytes → Int) (root : Json) (h h' : Heap) (dst : HFilter)
    (hp : Own.parse A real root h = some ((none, dst), h')) :
    ∃ h1, freeFilter dst h' = some (zero, h1) ∧ h1.mem = h.mem := by
  obtain ⟨st, d, h'', h1, h2⟩ := C89_parse hA real root h
  rw [hp] at h1
  simp only [Option.some.injEq, Prod.mk.injEq] at h1
  obtain ⟨⟨rfl, rfl⟩, rfl⟩ := h1
  rcases h2 with ⟨-, v, own, -, h3, h4, h5, h6⟩ | ⟨h, -⟩ | ⟨h, -⟩
  · exact ⟨_, freeFilter_ok h3 h4, without_fresh h5 h6⟩
  · simp at h
  · simp at h

example : ((Own.parse (failAt 99) (fun _ => 0) (.obj [(c!"ids", .arr [.str (c!"ab"), .num (c!"5")]),
      (c!"#t", .arr [.str (c!"x")])]) ⟨fun _ => none, 0⟩).map fun r => (r.1.1, r.2.tick)) = some (none, 5) := by
  decide +kernel

end Nostr.Filter.Props
