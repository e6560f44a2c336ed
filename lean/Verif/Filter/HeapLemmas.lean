import Verif.Filter.Heap

namespace Nostr.Filter.Own
open Nostr Nostr.Heap Nostr.Json

/-- `h'` is `h` plus the new, pairwise distinct blocks `own`. -/
structure Extends (h h' : Heap) (own : List Nat) : Prop where
  nodup : own.Nodup
  fresh : ∀ a ∈ own, h.mem a = none
  same : ∀ a, a ∉ own → h'.mem a = h.mem a

theorem Extends.refl (h : Heap) (t : Nat) : Extends h ⟨h.mem, t⟩ [] := ⟨.nil, by simp, fun _ _ => rfl⟩

theorem Extends.trans {h h1 h2 : Heap} {o1 o2} (e1 : Extends h h1 o1) (e2 : Extends h1 h2 o2)
    (l1 : ∀ a ∈ o1, h1.mem a ≠ none) : Extends h h2 (o1 ++ o2) := by
  have dis : ∀ a ∈ o1, a ∉ o2 := fun a ha hb => l1 a ha (e2.fresh a hb)
  refine ⟨List.nodup_append.2 ⟨e1.nodup, e2.nodup, fun a ha b hb hab => dis a ha (hab ▸ hb)⟩, ?_, ?_⟩
  · intro a ha
    rcases List.mem_append.1 ha with h' | h'
    · exact e1.fresh a h'
    · by_cases h1' : a ∈ o1
      · exact e1.fresh a h1'
      · rw [← e1.same a h1']; exact e2.fresh a h'
  · intro a ha
    simp only [List.mem_append, not_or] at ha
    rw [e2.same a ha.2, e1.same a ha.1]

theorem Extends.keeps {h h1 : Heap} {o1 o2 : List Nat} (e : Extends h h1 o1) (l : ∀ a ∈ o2, h.mem a ≠ none) :
    ∀ a ∈ o2, h1.mem a = h.mem a := fun a ha => e.same a fun hb => l a ha (e.fresh a hb)

theorem Extends.without {h h1 : Heap} {o} (e : Extends h h1 o) : without h1.mem o = h.mem :=
  without_fresh e.fresh e.same

theorem alloc_cases {A : Alloc} (hA : Fresh A) (o : Obj) (h : Heap) :
    (A h.mem h.tick = none ∧ alloc A o h = some (none, ⟨h.mem, h.tick + 1⟩)) ∨
    ∃ a, alloc A o h = some (some a, ⟨upd h.mem a (some o), h.tick + 1⟩) ∧ h.mem a = none := by
  unfold alloc
  cases hc : A h.mem h.tick with
  | none => exact .inl ⟨rfl, rfl⟩
  | some a => exact .inr ⟨a, rfl, hA _ _ _ hc⟩


theorem set_pre {α} (ps : List α) (x y : α) (rest) : (ps ++ y :: rest).set ps.length x = ps ++ x :: rest := by
  induction ps with
  | nil => rfl
  | cons p ps ih => simp [ih]

/-- The array being filled: `ps` are in place, `n` entries to go. -/
structure Filling (h0 h : Heap) (d : Nat) (ps : List Nat) (l : List Bytes) (n : Nat) : Prop where
  ext : Extends h0 h (d :: ps)
  arr : h.mem d = some (.ptrs (ps.map some ++ List.replicate n none))
  strs : Strings h.mem ps l

theorem Filling.free {h0 h : Heap} {d ps l n} (f : Filling h0 h d ps l n) (t : Nat) :
    freeStrings (some d) ps.length ⟨h.mem, t⟩ = some ((), ⟨h0.mem, t⟩) := by
  have : StrArr (⟨h.mem, t⟩ : Heap).mem (some d) ps.length l (d :: ps) := .arr f.arr f.strs
  rw [freeStrings_ok this f.ext.nodup]
  simp only [f.ext.without]

theorem Filling.step {h0 h : Heap} {d ps l n} (f : Filling h0 h d ps l (n + 1)) {c : Nat} {s : Bytes} {t : Nat}
    (hc : h.mem c = none) :
    ∃ h', storePtr d ps.length (some c) ⟨upd h.mem c (some (.str s)), t⟩ = some ((), h') ∧
      Filling h0 h' d (ps ++ [c]) (l ++ [s]) n := by
  have hd : d ≠ c := by rintro rfl; rw [f.arr] at hc; simp at hc
  have hps : c ∉ ps := fun hm => f.strs.live c hm hc
  have hdps : d ∉ ps := (List.nodup_cons.1 f.ext.nodup).1
  refine ⟨⟨upd (upd h.mem c (some (.str s))) d (some (.ptrs ((ps ++ [c]).map some ++ List.replicate n none))), t⟩,
    ?_, ?_, ?_, ?_⟩
  · unfold storePtr
    simp only [upd_other _ _ hd, f.arr, List.length_append, List.length_map, List.length_replicate,
      List.replicate_succ]
    rw [if_pos (by simp)]
    congr 4
    have := set_pre (ps.map some) (some c) none (List.replicate n none)
    rw [List.length_map] at this
    rw [this]
    simp
  · refine ⟨?_, ?_, ?_⟩
    · have hn := List.nodup_cons.1 f.ext.nodup
      rw [List.nodup_cons, List.nodup_append]
      refine ⟨by simp [hn.1, hd], hn.2, by simp, ?_⟩
      intro a ha b hb hab
      simp only [List.mem_singleton] at hb
      subst hb; subst hab; exact hps ha
    · intro a ha
      simp only [List.mem_cons, List.mem_append, List.not_mem_nil, or_false] at ha
      rcases ha with rfl | ha | rfl
      · exact f.ext.fresh _ List.mem_cons_self
      · exact f.ext.fresh _ (List.mem_cons_of_mem _ ha)
      · rw [← hc]
        exact (f.ext.same _ (by simp only [List.mem_cons, not_or]; exact ⟨Ne.symm hd, hps⟩)).symm
    · intro a ha
      simp only [List.mem_cons, List.mem_append, List.not_mem_nil, or_false, not_or] at ha
      simp only [upd_other _ _ ha.1, upd_other _ _ ha.2.2]
      exact f.ext.same a (by simp only [List.mem_cons, not_or]; exact ⟨ha.1, ha.2.1⟩)
  · simp only [upd_same]
  · refine Strings.append (f.strs.mono ?_) (.cons ?_ .nil)
    · intro a ha
      simp only
      rw [upd_other _ _ (by rintro rfl; exact hdps ha), upd_other _ _ (by rintro rfl; exact hps ha)]
    · simp only
      rw [upd_other _ _ (Ne.symm hd), upd_same]

theorem Filling.start {h : Heap} {d n : Nat} {t : Nat} (hd : h.mem d = none) :
    Filling h ⟨upd h.mem d (some (.ptrs (List.replicate n none))), t⟩ d [] [] n :=
  ⟨⟨by simp, by simpa using hd, fun a ha => upd_other _ _ (by simpa using ha)⟩, by simp, .nil⟩

theorem fillLoop_ok {A : Alloc} (hA : Fresh A) {h0 : Heap} {d : Nat} : ∀ (ss : List Bytes) (ps : List Nat)
    (l : List Bytes) (n : Nat) (h : Heap), Filling h0 h d ps l n → ss.length ≤ n →
    ∃ b h', fillLoop A d ss ps.length h = some (b, h') ∧
      ((b = false ∧ Refused A h0.mem ∧ h'.mem = h0.mem) ∨
        (b = true ∧ ∃ qs, Filling h0 h' d (ps ++ qs) (l ++ ss) (n - ss.length))) := by
  intro ss
  induction ss with
  | nil => intro ps l n h f _; exact ⟨true, h, rfl, .inr ⟨rfl, [], by simpa using f⟩⟩
  | cons s ss ih =>
    intro ps l n h f hn
    obtain ⟨k, rfl⟩ : ∃ k, n = k + 1 := ⟨n - 1, by simp at hn; omega⟩
    simp only [fillLoop, M.bind]
    rcases alloc_cases hA (.str s) h with ⟨hf, hc⟩ | ⟨c, hc, hm⟩
    · simp only [hc, Option.bind_some, M.bind, f.free, M.pure]
      exact ⟨_, _, rfl, .inl ⟨rfl, (Refused.here hf).back f.ext.same, rfl⟩⟩
    · simp only [hc, Option.bind_some, M.bind]
      obtain ⟨h', h1, h2⟩ := f.step (s := s) (t := h.tick + 1) hm
      simp only [h1, Option.bind_some]
      obtain ⟨b, h'', h3, h4⟩ := ih (ps ++ [c]) (l ++ [s]) k h' h2 (by simpa using hn)
      rw [List.length_append, List.length_singleton] at h3
      refine ⟨b, h'', h3, ?_⟩
      rcases h4 with h4 | ⟨rfl, qs, h4⟩
      · exact .inl h4
      · refine .inr ⟨rfl, c :: qs, ?_⟩
        simpa using h4

theorem cloneLoop_ok {A : Alloc} (hA : Fresh A) {h0 : Heap} {d sa : Nat} (rest : List (Option Nat)) :
    ∀ (sp : List Nat) (ss : List Bytes)
    (pre : List (Option Nat)) (ps : List Nat) (l : List Bytes) (n : Nat) (h : Heap), Filling h0 h d ps l n → sp.length ≤ n →
    pre.length = ps.length → h0.mem sa = some (.ptrs (pre ++ sp.map some ++ rest)) → Strings h0.mem sp ss →
    ∃ b h', cloneLoop A d (some sa) sp.length ps.length h = some (b, h') ∧
      ((b = false ∧ Refused A h0.mem ∧ h'.mem = h0.mem) ∨
        (b = true ∧ ∃ qs, Filling h0 h' d (ps ++ qs) (l ++ ss) (n - ss.length))) := by
  intro sp
  induction sp with
  | nil =>
    intro ss pre ps l n h f _ _ _ hs
    cases hs
    exact ⟨true, h, rfl, .inr ⟨rfl, [], by simpa using f⟩⟩
  | cons p sp ih =>
    intro ss pre ps l n h f hn hpl hsa hs
    cases hs with
    | @cons _ s _ ss hp ht =>
    obtain ⟨k, rfl⟩ : ∃ k, n = k + 1 := ⟨n - 1, by simp at hn; omega⟩
    have keep : ∀ a, h0.mem a ≠ none → h.mem a = h0.mem a :=
      fun a ha => f.ext.same a fun hm => ha (f.ext.fresh a hm)
    have hsa' : h.mem sa = some (.ptrs (pre ++ List.map some (p :: sp) ++ rest)) := by
      rw [keep sa (by rw [hsa]; simp), hsa]
    have hp' : h.mem p = some (.str s) := by rw [keep p (by rw [hp]; simp), hp]
    have hix : (pre ++ List.map some (p :: sp) ++ rest)[ps.length]? = some (some p) := by
      rw [← hpl]; simp
    simp only [List.length_cons, cloneLoop, M.bind, loadPtr, hsa', hix, Option.map_some, Option.bind_some,
      loadStr, hp']
    rcases alloc_cases hA (.str s) h with ⟨hf, hc⟩ | ⟨c, hc, hm⟩
    · simp only [hc, Option.bind_some, M.bind, f.free, M.pure]
      exact ⟨_, _, rfl, .inl ⟨rfl, (Refused.here hf).back f.ext.same, rfl⟩⟩
    · simp only [hc, Option.bind_some, M.bind]
      obtain ⟨h', h1, h2⟩ := f.step (s := s) (t := h.tick + 1) hm
      simp only [h1, Option.bind_some]
      obtain ⟨b, h'', h3, h4⟩ := ih ss (pre ++ [some p]) (ps ++ [c]) (l ++ [s]) k h' h2 (by simpa using hn)
        (by simp [hpl]) (by rw [hsa]; simp) ht
      rw [List.length_append, List.length_singleton] at h3
      refine ⟨b, h'', h3, ?_⟩
      rcases h4 with h4 | ⟨rfl, qs, h4⟩
      · exact .inl h4
      · refine .inr ⟨rfl, c :: qs, ?_⟩
        simpa using h4

/-- Result of a routine that allocates one field: nothing else changes, the field stands for some value, the
wanted one unless an error (satisfying `E`) is reported; the field then satisfies `Z`. -/
structure Step {α : Type} {β : Type} (Z : α → Prop) (R : Mem → α → β → List Nat → Prop) (want : β → Prop) (E : RelayErr → Prop)
    (h : Heap) (res : Option ((Option RelayErr × α) × Heap)) : Prop where
  ex : ∃ st x h' v own, res = some ((st, x), h') ∧ Extends h h' own ∧ R h'.mem x v own ∧
    (st = none → want v) ∧ ∀ e, st = some e → E e ∧ Z x

abbrev StrPair (m : Mem) (x : Option Nat × Nat) (l : List Bytes) (o : List Nat) : Prop := StrArr m x.1 x.2 l o

/-- Only out-of-memory errors. -/
def MemErr (A : Alloc) (m : Mem) (e : RelayErr) : Prop := e = .memory ∧ Refused A m

theorem MemErr.back {A : Alloc} {h h' : Heap} {o} (e : Extends h h' o) (x) : MemErr A h'.mem x → MemErr A h.mem x :=
  fun hx => ⟨hx.1, hx.2.back e.same⟩

/-- Weaken the error condition of a step. -/
theorem Step.weaken {α β : Type} {Z : α → Prop} {R : Mem → α → β → List Nat → Prop} {w : β → Prop}
    {E E' : RelayErr → Prop} {h res} (s : Step Z R w E h res) (he : ∀ e, E e → E' e) : Step Z R w E' h res := by
  obtain ⟨st, x, h', v, own, h1, h2, h3, h4, h5⟩ := s.ex
  exact ⟨st, x, h', v, own, h1, h2, h3, h4, fun e h => ⟨he e (h5 e h).1, (h5 e h).2⟩⟩

theorem cloneStrings_step {A : Alloc} (hA : Fresh A) {h : Heap} {src : Option Nat × Nat} {l : List Bytes} {o}
    (hs : StrPair h.mem src l o) : Step (· = (none, 0)) StrPair (· = l) (MemErr A h.mem) h (cloneStrings A src h) := by
  obtain ⟨p, n⟩ := src
  unfold StrPair at hs
  simp only at hs
  cases hs with
  | null => exact ⟨none, (none, 0), h, [], [], rfl, Extends.refl h _, .null, fun _ => rfl, by simp⟩
  | @arr a ps l rest ha hs =>
    cases hn : ps.length with
    | zero =>
      have : ps = [] := List.eq_nil_of_length_eq_zero hn
      subst this
      cases hs
      exact ⟨none, (none, 0), h, [], [], rfl, Extends.refl h _, .null, fun _ => rfl, by simp⟩
    | succ k =>
      unfold cloneStrings
      simp only [Nat.succ_ne_zero, if_false, reduceCtorEq, M.bind]
      rcases alloc_cases hA (.ptrs (List.replicate (k + 1) none)) h with ⟨hf, hc⟩ | ⟨d, hc, hm⟩
      · simp only [hc, Option.bind_some, M.pure]
        exact ⟨_, _, _, [], [], rfl, Extends.refl h _, .null, by simp, by
          intro e he; simp only [Option.some.injEq] at he; exact ⟨⟨he.symm, .here hf⟩, rfl⟩⟩
      · simp only [hc, Option.bind_some, M.bind]
        obtain ⟨b, h', h3, h4⟩ := cloneLoop_ok hA rest ps l [] [] [] (k + 1) _
          (Filling.start (h := h) (d := d) (n := k + 1) (t := h.tick + 1) hm) (by omega) rfl (by simpa using ha) hs
        rw [hn, List.length_nil] at h3
        rw [h3]
        simp only [Option.bind_some]
        rcases h4 with ⟨rfl, hf, hm'⟩ | ⟨rfl, qs, hq⟩
        · obtain ⟨m', t'⟩ := h'
          simp only at hm'
          subst hm'
          simp only [Bool.false_eq_true, if_false, M.pure]
          exact ⟨_, _, _, [], [], rfl, Extends.refl h _, .null, by simp, by
            intro e he; simp only [Option.some.injEq] at he; exact ⟨⟨he.symm, hf⟩, rfl⟩⟩
        · simp only [if_true, M.pure]
          simp only [List.nil_append] at hq
          refine ⟨_, _, _, l, d :: qs, rfl, hq.ext, ?_, fun _ => rfl, by simp⟩
          have hl := hq.strs.length
          have hl2 := hs.length
          have : StrArr h'.mem (some d) qs.length l (d :: qs) := .arr hq.arr hq.strs
          rw [show qs.length = k + 1 by omega] at this
          exact this

theorem cloneInts_step {A : Alloc} (hA : Fresh A) {h : Heap} {src : Option Nat × Nat} {l : List Int} {o}
    (hs : IntArr h.mem src l o) : Step (· = (none, 0)) IntArr (· = l) (MemErr A h.mem) h (cloneInts A src h) := by
  cases hs with
  | null => exact ⟨none, (none, 0), h, [], [], rfl, Extends.refl h _, .null, fun _ => rfl, by simp⟩
  | @arr a l rest ha =>
    unfold cloneInts
    by_cases hz : l.length = 0
    · have : l = [] := List.eq_nil_of_length_eq_zero hz
      subst this
      exact ⟨none, (none, 0), h, [], [], rfl, Extends.refl h _, .null, fun _ => rfl, by simp⟩
    · simp only [hz, if_false, M.bind]
      rcases alloc_cases hA (.ints (List.replicate l.length 0)) h with ⟨hf, hc⟩ | ⟨d, hc, hm⟩
      · simp only [hc, Option.bind_some, M.pure]
        exact ⟨_, _, _, [], [], rfl, Extends.refl h _, .null, by simp, by
          intro e he; simp only [Option.some.injEq] at he; exact ⟨⟨he.symm, .here hf⟩, rfl⟩⟩
      · have hda : a ≠ d := by rintro rfl; rw [ha] at hm; simp at hm
        simp only [hc, Option.bind_some, upd_other _ _ hda, ha, List.length_append, Nat.le_add_right, if_true,
          store, upd_same, Option.isSome_some, M.pure, List.take_left]
        refine ⟨_, _, _, l, [d], rfl, ⟨by simp, by simpa using hm, ?_⟩, ?_, fun _ => rfl, by simp⟩
        · intro b hb
          simp only [List.mem_singleton] at hb
          simp only [upd_other _ _ hb]
        · exact .arr (rest := []) (by simp)

theorem cloneSearch_step {A : Alloc} (hA : Fresh A) {h : Heap} {src : Option Nat} {l : Option Bytes} {o}
    (hs : OptStr h.mem src l o) : Step (· = none) OptStr (· = l) (MemErr A h.mem) h (cloneSearch A src h) := by
  cases hs with
  | null => exact ⟨none, none, h, none, [], rfl, Extends.refl h _, .null, fun _ => rfl, by simp⟩
  | @str a s ha =>
    unfold cloneSearch
    simp only [M.bind, loadStr, ha, Option.bind_some]
    rcases alloc_cases hA (.str s) h with ⟨hf, hc⟩ | ⟨d, hc, hm⟩
    · simp only [hc, Option.bind_some, M.pure]
      exact ⟨_, _, _, none, [], rfl, Extends.refl h _, .null, by simp, by
          intro e he; simp only [Option.some.injEq] at he; exact ⟨⟨he.symm, .here hf⟩, rfl⟩⟩
    · simp only [hc, Option.bind_some, M.pure]
      refine ⟨_, _, _, some s, [d], rfl, ⟨by simp, by simpa using hm, ?_⟩, .str (by simp), fun _ => rfl, by simp⟩
      intro b hb
      simp only [List.mem_singleton] at hb
      simp only [upd_other _ _ hb]

theorem Recs.mono {m m' : Mem} {rs l o} (h : Recs m rs l o) (hm : ∀ a ∈ o, m' a = m a) : Recs m' rs l o := by
  induction h with
  | nil => exact .nil
  | cons h _ ih =>
    exact .cons (h.mono fun a ha => hm a (List.mem_append_left _ ha)) (ih fun a ha => hm a (List.mem_append_right _ ha))

theorem Recs.live {m rs l o} (h : Recs m rs l o) : ∀ a ∈ o, m a ≠ none := by
  induction h with
  | nil => simp
  | cons h _ ih =>
    intro a ha
    rcases List.mem_append.1 ha with ha | ha
    · exact h.live a ha
    · exact ih a ha

theorem Recs.length {m rs l o} (h : Recs m rs l o) : rs.length = l.length := by
  induction h with
  | nil => rfl
  | cons _ _ ih => simp [ih]

theorem Recs.snoc {m rs l o c r vs o'} (h : Recs m rs l o) (h' : StrArr m r.1 r.2 vs o') :
    Recs m (rs ++ [(c, r)]) (l ++ [(c, vs)]) (o ++ o') := by
  induction h with
  | nil => simpa using Recs.cons (c := c) h' .nil
  | cons h _ ih => rw [List.append_assoc]; exact .cons h ih

theorem freeRecs_ok (a : Nat) : ∀ {rs l o} (pre rest) (h : Heap), Recs h.mem rs l o →
    h.mem a = some (.recs (pre ++ rs ++ rest)) → o.Nodup → a ∉ o →
    freeRecs a rs.length pre.length h = some ((), ⟨without h.mem o, h.tick⟩) := by
  intro rs
  induction rs with
  | nil => intro l o pre rest h hr _ _ _; cases hr; simp [freeRecs, M.pure, without_nil]
  | cons r rs ih =>
    intro l o pre rest h hr ha hn hna
    cases hr with
    | @cons c r _ vs l o1 o2 hr ht =>
    rw [List.nodup_append] at hn
    simp only [List.mem_append, not_or] at hna
    simp only [List.length_cons, freeRecs, ha]
    have hix : (pre ++ ((c, r) :: rs) ++ rest)[pre.length]? = some (c, r) := by simp
    simp only [hix, M.bind, freeStrings_ok hr hn.1, Option.bind_some]
    have key := ih (pre ++ [(c, r)]) rest ⟨without h.mem o1, h.tick⟩
      (ht.mono fun b hb => without_other _ fun hb' => hn.2.2 b hb' b hb rfl)
      (by simp only [without_other _ hna.1, ha]; simp) hn.2.1 hna.2
    rw [List.length_append, List.length_singleton] at key
    rw [key]
    simp only [without_append]

theorem freeGeneric_ok {x l o} {h : Heap} (hr : RecArr h.mem x l o) (hn : o.Nodup) :
    freeGeneric x.1 x.2 h = some ((), ⟨without h.mem o, h.tick⟩) := by
  cases hr with
  | null => simp [freeGeneric, M.pure, without_nil]
  | @arr a rs l o rest ha hr =>
    rw [List.nodup_cons] at hn
    have := freeRecs_ok a [] rest h hr (by simpa using ha) hn.2 hn.1
    rw [List.length_nil] at this
    simp only [freeGeneric, M.bind, this, Option.bind_some, free, without_other _ hn.1, ha, Option.isSome_some,
      if_true, without_cons]

theorem freeKinds_ok {x l o} {h : Heap} (hr : IntArr h.mem x l o) :
    free x.1 h = some ((), ⟨without h.mem o, h.tick⟩) := by
  cases hr with
  | null => simp [free, without_nil]
  | arr ha =>
    simp only [free, ha, Option.isSome_some, if_true]
    rw [← without_cons, without_nil]

theorem freeSearch_ok {x l o} {h : Heap} (hr : OptStr h.mem x l o) :
    free x h = some ((), ⟨without h.mem o, h.tick⟩) := by
  cases hr with
  | null => simp [free, without_nil]
  | str ha =>
    simp only [free, ha, Option.isSome_some, if_true]
    rw [← without_cons, without_nil]

theorem IntArr.mono {m m' : Mem} {x l o} (h : IntArr m x l o) (hm : ∀ a ∈ o, m' a = m a) : IntArr m' x l o := by
  cases h with
  | null => exact .null
  | arr ha => exact .arr ((hm _ List.mem_cons_self).trans ha)

theorem IntArr.live {m x l o} (h : IntArr m x l o) : ∀ a ∈ o, m a ≠ none := by
  cases h with
  | null => simp
  | arr ha => intro a h'; simp only [List.mem_singleton] at h'; subst h'; rw [ha]; simp

theorem OptStr.mono {m m' : Mem} {x l o} (h : OptStr m x l o) (hm : ∀ a ∈ o, m' a = m a) : OptStr m' x l o := by
  cases h with
  | null => exact .null
  | str ha => exact .str ((hm _ List.mem_cons_self).trans ha)

theorem OptStr.live {m x l o} (h : OptStr m x l o) : ∀ a ∈ o, m a ≠ none := by
  cases h with
  | null => simp
  | str ha => intro a h'; simp only [List.mem_singleton] at h'; subst h'; rw [ha]; simp

theorem RecArr.mono {m m' : Mem} {x l o} (h : RecArr m x l o) (hm : ∀ a ∈ o, m' a = m a) : RecArr m' x l o := by
  cases h with
  | null => exact .null
  | arr ha hr =>
    exact .arr ((hm _ List.mem_cons_self).trans ha) (hr.mono fun a ha => hm a (List.mem_cons_of_mem _ ha))

theorem RecArr.live {m x l o} (h : RecArr m x l o) : ∀ a ∈ o, m a ≠ none := by
  cases h with
  | null => simp
  | arr ha hr =>
    intro a h'
    rcases List.mem_cons.1 h' with rfl | h'
    · rw [ha]; simp
    · exact hr.live a h'

theorem freeFilter_ok {f v own} {h : Heap} (hr : Repr h.mem f v own) (hn : own.Nodup) :
    freeFilter f h = some (zero, ⟨without h.mem own, h.tick⟩) := by
  cases hr with
  | @mk o1 o2 o3 o4 o5 o6 o7 h1 h2 h3 h4 h5 h6 h7 =>
  rw [List.nodup_append] at hn
  obtain ⟨n1, hn, d1⟩ := hn
  rw [List.nodup_append] at hn
  obtain ⟨n2, hn, d2⟩ := hn
  rw [List.nodup_append] at hn
  obtain ⟨n3, hn, d3⟩ := hn
  rw [List.nodup_append] at hn
  obtain ⟨n4, hn, d4⟩ := hn
  rw [List.nodup_append] at hn
  obtain ⟨n5, hn, d5⟩ := hn
  rw [List.nodup_append] at hn
  obtain ⟨n6, n7, d6⟩ := hn
  simp only [List.mem_append] at d1 d2 d3 d4 d5 d6
  have wo : ∀ (m : Mem) (o o' : List Nat), (∀ a ∈ o, ∀ b ∈ o', a ≠ b) → ∀ a ∈ o', without m o a = m a :=
    fun m o o' hd a ha => without_other _ fun hb => hd a hb a ha rfl
  unfold freeFilter
  simp only [M.bind, freeStrings_ok h1 n1, Option.bind_some]
  replace h2 := h2.mono (wo _ o1 o2 fun a ha b hb => d1 a ha b (by simp [hb]))
  replace h3 := h3.mono (wo _ o1 o3 fun a ha b hb => d1 a ha b (by simp [hb]))
  replace h4 := h4.mono (wo _ o1 o4 fun a ha b hb => d1 a ha b (by simp [hb]))
  replace h5 := h5.mono (wo _ o1 o5 fun a ha b hb => d1 a ha b (by simp [hb]))
  replace h6 := h6.mono (wo _ o1 o6 fun a ha b hb => d1 a ha b (by simp [hb]))
  replace h7 := h7.mono (wo _ o1 o7 fun a ha b hb => d1 a ha b (by simp [hb]))
  rw [freeStrings_ok (h := ⟨without h.mem o1, h.tick⟩) h2 n2]
  simp only [Option.bind_some]
  replace h3 := h3.mono (wo _ o2 o3 fun a ha b hb => d2 a ha b (by simp [hb]))
  replace h4 := h4.mono (wo _ o2 o4 fun a ha b hb => d2 a ha b (by simp [hb]))
  replace h5 := h5.mono (wo _ o2 o5 fun a ha b hb => d2 a ha b (by simp [hb]))
  replace h6 := h6.mono (wo _ o2 o6 fun a ha b hb => d2 a ha b (by simp [hb]))
  replace h7 := h7.mono (wo _ o2 o7 fun a ha b hb => d2 a ha b (by simp [hb]))
  rw [freeKinds_ok (h := ⟨without (without h.mem o1) o2, h.tick⟩) h3]
  simp only [Option.bind_some]
  replace h4 := h4.mono (wo _ o3 o4 fun a ha b hb => d3 a ha b (by simp [hb]))
  replace h5 := h5.mono (wo _ o3 o5 fun a ha b hb => d3 a ha b (by simp [hb]))
  replace h6 := h6.mono (wo _ o3 o6 fun a ha b hb => d3 a ha b (by simp [hb]))
  replace h7 := h7.mono (wo _ o3 o7 fun a ha b hb => d3 a ha b (by simp [hb]))
  rw [freeStrings_ok (h := ⟨without (without (without h.mem o1) o2) o3, h.tick⟩) h4 n4]
  simp only [Option.bind_some]
  replace h5 := h5.mono (wo _ o4 o5 fun a ha b hb => d4 a ha b (by simp [hb]))
  replace h6 := h6.mono (wo _ o4 o6 fun a ha b hb => d4 a ha b (by simp [hb]))
  replace h7 := h7.mono (wo _ o4 o7 fun a ha b hb => d4 a ha b (by simp [hb]))
  rw [freeStrings_ok (h := ⟨without (without (without (without h.mem o1) o2) o3) o4, h.tick⟩) h5 n5]
  simp only [Option.bind_some]
  replace h6 := h6.mono (wo _ o5 o6 fun a ha b hb => d5 a ha b (by simp [hb]))
  replace h7 := h7.mono (wo _ o5 o7 fun a ha b hb => d5 a ha b (by simp [hb]))
  rw [freeGeneric_ok (h := ⟨without (without (without (without (without h.mem o1) o2) o3) o4) o5, h.tick⟩) h6 n6]
  simp only [Option.bind_some]
  replace h7 := h7.mono (wo _ o6 o7 fun a ha b hb => d6 a ha b (by simp [hb]))
  rw [freeSearch_ok (h := ⟨without (without (without (without (without (without h.mem o1) o2) o3) o4) o5) o6, h.tick⟩) h7]
  simp only [Option.bind_some, M.pure, without_append, List.append_assoc]

end Nostr.Filter.Own
