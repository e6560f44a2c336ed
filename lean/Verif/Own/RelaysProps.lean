import Verif.Own.Basic
import Verif.Own.Relays
import Verif.Own.ConnProps
import Verif.Nip65.Props

/-! # Property theorems: memory of a relay list (C152) -/

namespace Nostr.Own.Relays.Props
open Nostr Nostr.Heap Nostr.Own Nostr.Own.Relays Nostr.Nip65 Nostr.Nip65.Spec Nostr.Nip65.Props

/-! ## Specification -/

/-- The blocks of the list are live and hold the entries `s`, in their order; `ps` are the blocks of the URLs. -/
structure Holds (m : Mem) (l : HList) (s : List Entry) (ps : List Nat) : Prop where
  self : m l.self ≠ none
  arr : ∃ rest, m l.arr = some (.ptrs (ps.map some ++ rest))
  urls : Strings m ps (s.map (·.url))
  flags : l.flags = s.map fun e => (e.read, e.write)

/-- Compared with `h0`, the memory `m` has exactly the blocks of the list more, and the list holds `s`. -/
def Has (h0 m : Mem) (l : HList) (s : List Entry) : Prop :=
  ∃ ps, Holds m l s ps ∧ Owned h0 m (l.arr :: ps ++ [l.self])

/-- The text that a call passes; `none` is NULL. -/
def Call.text (h0 : Mem) (s : List Entry) (c : Call) : Option Bytes :=
  match c.src with
  | .text p => match h0 p with
    | some (.str t) => some t
    | _ => none
  | .entry i => (s[i]?).map (·.url)

/-- The caller passes live texts of their own. -/
def Call.Sound (h0 : Mem) (c : Call) : Prop := ∀ p, c.src = .text p → ∃ t, h0 p = some (.str t)

/-- What one call may do to the entries, and what it returns. -/
inductive Did (A : Alloc) (h0 : Mem) : List Entry → Call → Option Err → List Entry → Prop
  | added {s c t} (ht : Call.text h0 s c = some t) (hf : Fit s ⟨t, c.read, c.write⟩) : Did A h0 s c none (s ++ [⟨t, c.read, c.write⟩])
  | refused {s c} (hf : ∀ t, Call.text h0 s c = some t → ¬ Fit s ⟨t, c.read, c.write⟩) : Did A h0 s c (some .invalidParam) s
  | noMemory {s c t} (ht : Call.text h0 s c = some t) (hf : Fit s ⟨t, c.read, c.write⟩) (hm : Refused A h0) : Did A h0 s c (some .memory) s

/-- What a sequence of calls may do. -/
inductive Went (A : Alloc) (h0 : Mem) : List Entry → List Call → List (Option Err) → List Entry → Prop
  | nil {s} : Went A h0 s [] [] s
  | cons {s s1 s2 c cs r rs} (h : Did A h0 s c r s1) (t : Went A h0 s1 cs rs s2) : Went A h0 s (c :: cs) (r :: rs) s2

/-! ## Lemmas -/

/-- The list with what is known about its array. -/
structure Inv (h0 m : Mem) (l : HList) (s : List Entry) (ps : List Nat) : Prop where
  arr : Arr m l.arr ps (s.map (·.url)) (l.cap - ps.length)
  flags : l.flags = s.map fun e => (e.read, e.write)
  room : s.length ≤ l.cap
  min : 8 ≤ l.cap
  max : l.cap ≤ 256
  own : Owned h0 m (l.arr :: ps ++ [l.self])

theorem Inv.len {h0 m l s ps} (i : Inv h0 m l s ps) : ps.length = s.length := by
  have := i.arr.strs.length
  simpa using this

theorem Inv.count {h0 m l s ps} (i : Inv h0 m l s ps) : l.flags.length = s.length := by rw [i.flags]; simp

theorem Inv.has {h0 m l s ps} (i : Inv h0 m l s ps) : Has h0 m l s :=
  ⟨ps, ⟨i.own.live _ (by simp), ⟨_, i.arr.arr⟩, i.arr.strs, i.flags⟩, i.own⟩

theorem create_ok {A : Alloc} (hA : Fresh A) (h : Heap) :
    (∃ h', create A h = some (none, h') ∧ h'.mem = h.mem ∧ Refused A h.mem) ∨
    ∃ l h', create A h = some (some l, h') ∧ Inv h.mem h'.mem l [] [] := by
  unfold create
  rcases allocP hA (Owned.nil h.mem) Ev.blob with ⟨h1, e1, m1, f1⟩ | ⟨a, h1, e1, v1, o1, k1⟩
  · refine .inl ⟨h1, ?_, m1, f1⟩
    simp only [M.bind, e1, Option.bind_some, M.pure]
  · rcases allocP hA o1 (.ptrs (List.replicate 8 none)) with ⟨h2, e2, m2, f2⟩ | ⟨b, h2, e2, v2, o2, k2⟩
    · obtain ⟨h3, e3, o3, -⟩ := freeP (h := h2) (p := some a) (b := []) (by rw [m2]; exact o1)
      refine .inl ⟨h3, ?_, o3.eq, f2⟩
      simp only [M.bind, e1, e2, e3, Option.bind_some, M.pure]
    · refine .inr ⟨⟨a, b, [], 8⟩, h2, ?_, ⟨⟨v2, .nil⟩, rfl, by simp, by simp, by simp, o2⟩⟩
      simp only [M.bind, e1, e2, Option.bind_some, M.pure]

theorem destroy_has {h0 : Mem} {h : Heap} {l s} (i : Has h0 h.mem l s) :
    ∃ h', destroy l h = some ((), h') ∧ h'.mem = h0 := by
  obtain ⟨ps, i, o⟩ := i
  obtain ⟨rest, ha⟩ := i.arr
  have hs : StrArr h.mem (some l.arr) ps.length (s.map (·.url)) (l.arr :: ps) := .arr ha i.urls
  obtain ⟨h1, e1, m1, o1⟩ := Owned.freeStrings (b := [l.self]) o hs
  obtain ⟨h2, e2, o2, -⟩ := freeP (p := some l.self) (b := []) o1
  have hl : l.flags.length = ps.length := by rw [i.flags, i.urls.length]; simp
  refine ⟨h2, ?_, o2.eq⟩
  unfold destroy
  rw [hl]
  simp only [M.bind, e1, e2, Option.bind_some]

theorem known_ok {h : Heap} {arr : Nat} (url : Bytes) : ∀ (ps : List Nat) (us : List Bytes) (pre : List (Option Nat)) (rest),
    h.mem arr = some (.ptrs (pre ++ ps.map some ++ rest)) → Strings h.mem ps us →
    known arr url ps.length pre.length h = some (us.any fun u => decide (u = url), h) := by
  intro ps
  induction ps with
  | nil => intro us pre rest _ hs; cases hs; rfl
  | cons p ps ih =>
    intro us pre rest ha hs
    cases hs with
    | @cons _ t _ us hp ht =>
      have h1 : (pre ++ List.map some (p :: ps) ++ rest)[pre.length]? = some (some p) := by simp
      simp only [List.length_cons, known, M.bind, loadPtr, ha, h1, Option.map_some, Option.bind_some, loadStr, hp]
      by_cases hx : t = url
      · simp [hx, M.pure]
      · rw [if_neg hx]
        have := ih us (pre ++ [some p]) rest (by rw [ha]; simp) ht
        rw [List.length_append, List.length_singleton] at this
        rw [this]
        simp [hx]

theorem grow_ok {A : Alloc} (hA : Fresh A) {h0 : Mem} {h : Heap} {l s ps} (i : Inv h0 h.mem l s ps) (hs : s.length < 256) :
    (∃ h', grow A l h = some ((some .memory, l), h') ∧ h'.mem = h.mem ∧ Refused A h0) ∨
    ∃ l' h', grow A l h = some ((none, l'), h') ∧ Inv h0 h'.mem l' s ps ∧ s.length < l'.cap ∧
      ∀ x ∈ ps, h'.mem x = h.mem x := by
  unfold grow
  have h1 := i.len
  have h2 := i.count
  have h3 := i.room
  have h4 := i.min
  have h5 := i.max
  by_cases hc : l.flags.length ≥ l.cap
  · rw [if_pos hc]
    generalize hn : (if l.cap * 2 > 256 then 256 else l.cap * 2) = n
    have hn1 : s.length < n ∧ n ≤ 256 ∧ 8 ≤ n := by rw [← hn]; split <;> omega
    rw [if_neg (by omega)]
    rcases Conn.Props.realloc_ok hA (rest := [l.self]) (n := n) i.arr i.own (by omega) with ⟨h', e1, m1, f1⟩ | ⟨d, h', e1, a1, o1, k1⟩
    · refine .inl ⟨h', ?_, m1, f1⟩
      simp only [M.bind, e1, Option.bind_some, M.pure]
    · refine .inr ⟨{ l with arr := d, cap := n }, h', ?_, ⟨a1, i.flags, by simp only; omega, by simp only; omega, by simp only; omega, o1⟩, hn1.1,
        fun x hx => k1 x (by simp [hx])⟩
      simp only [M.bind, e1, Option.bind_some, M.pure]
  · rw [if_neg hc]
    exact .inr ⟨l, h, rfl, i, by omega, fun _ _ => rfl⟩

/-- What adding comes to. -/
inductive Added (A : Alloc) (h0 : Mem) (h : Heap) (l : HList) (s : List Entry) (e : Entry) : Option Err → HList → Heap → Prop
  | refused (hf : ¬ Fit s e) : Added A h0 h l s e (some .invalidParam) l h
  | noMemory {l' h' ps} (hf : Fit s e) (hm : Refused A h0) (i : Inv h0 h'.mem l' s ps) : Added A h0 h l s e (some .memory) l' h'
  | added {l' h' ps} (hf : Fit s e) (i : Inv h0 h'.mem l' (s ++ [e]) ps) : Added A h0 h l s e none l' h'

theorem add_ok {A : Alloc} (hA : Fresh A) {h0 : Mem} {h : Heap} {l s ps} (i : Inv h0 h.mem l s ps) {url : M Bytes} (e : Entry)
    (hu : ∀ (h' : Heap) own, Owned h0 h'.mem own → (∀ x ∈ ps, h'.mem x = h.mem x) → url h' = some (e.url, h')) :
    ∃ r l' h', add A l url e.read e.write h = some ((r, l'), h') ∧ Added A h0 h l s e r l' h' := by
  unfold add
  by_cases h1 : e.read = false ∧ e.write = false
  · rw [if_pos h1]
    exact ⟨_, _, _, rfl, .refused fun hf => by have := hf.2.1; simp [h1] at this⟩
  rw [if_neg h1]
  have e0 := hu h _ i.own fun _ _ => rfl
  by_cases h2 : validUrl e.url = false
  · refine ⟨_, _, h, ?_, .refused fun hf => by rw [(validUrl_iff _).2 hf.1] at h2; simp at h2⟩
    simp only [M.bind, e0, Option.bind_some, if_pos h2, M.pure]
  by_cases h3 : l.flags.length ≥ 256
  · refine ⟨_, _, h, ?_, .refused fun hf => ?_⟩
    · simp only [M.bind, e0, Option.bind_some, if_neg h2, if_pos h3, M.pure]
    · have := hf.2.2.1; rw [i.count] at h3; omega
  have ek := known_ok e.url ps _ [] _ i.arr.arr i.arr.strs
  rw [i.len, ← i.count, List.length_nil] at ek
  by_cases h4 : ((s.map (·.url)).any fun u => decide (u = e.url)) = true
  · refine ⟨_, _, h, ?_, .refused fun hf => ?_⟩
    · simp only [M.bind, e0, Option.bind_some, if_neg h2, if_neg h3, ek, if_pos h4, M.pure]
    · obtain ⟨u, hu, he⟩ := List.any_eq_true.1 h4
      obtain ⟨x, hx, rfl⟩ := List.mem_map.1 hu
      exact hf.2.2.2 x hx (by simpa using he)
  have hfit : Fit s e := by
    refine ⟨(validUrl_iff _).1 (by simpa using h2), ?_, by rw [i.count] at h3; omega, fun x hx hxe =>
      h4 (List.any_eq_true.2 ⟨x.url, List.mem_map.2 ⟨x, hx, rfl⟩, by simpa using hxe⟩)⟩
    by_cases hr : e.read = true
    · exact .inl hr
    · by_cases hw : e.write = true
      · exact .inr hw
      · simp [hr, hw] at h1
  rcases grow_ok hA i hfit.2.2.1 with ⟨h', e1, m1, f1⟩ | ⟨l', h', e1, i1, c1, k1⟩
  · refine ⟨_, _, h', ?_, .noMemory (ps := ps) hfit f1 (m1 ▸ i)⟩
    simp only [M.bind, e0, Option.bind_some, if_neg h2, if_neg h3, ek, if_neg h4, e1, M.pure]
  have e2 := hu h' _ i1.own k1
  have hl1 := i1.len
  have hc1 := i1.count
  have hmin := i1.min
  have hmax := i1.max
  obtain ⟨k, hk⟩ : ∃ k, l'.cap - ps.length = k + 1 := ⟨l'.cap - ps.length - 1, by omega⟩
  rcases allocP hA i1.own (.str e.url) with ⟨h'', e3, m3, f3⟩ | ⟨c, h'', e3, v3, o3, k3⟩
  · have ha : h''.mem l'.arr = some (.ptrs (ps.map some ++ List.replicate (l'.cap - ps.length) none)) := by rw [m3]; exact i1.arr.arr
    have e4 : storePtr l'.arr l'.flags.length none h'' = some ((), ⟨upd h''.mem l'.arr (h''.mem l'.arr), h''.tick⟩) := by
      unfold storePtr
      rw [ha]
      simp only
      rw [if_pos (by simp; omega)]
      have hx : (ps.map some ++ List.replicate (l'.cap - ps.length) none)[l'.flags.length]? = some none := by
        rw [List.getElem?_append_right (by simp; omega)]
        rw [List.getElem?_replicate, if_pos (by simp; omega)]
      obtain ⟨hlt, hx⟩ := List.getElem?_eq_some_iff.1 hx
      have hset : ∀ (L : List (Option Nat)) (n : Nat) (hn : n < L.length), L[n] = none → L.set n none = L := fun L n hn hx => by
        conv => lhs; rw [← hx]
        exact List.set_getElem_self hn
      rw [hset _ _ hlt hx]
    have hsame : upd h''.mem l'.arr (h''.mem l'.arr) = h'.mem := by
      rw [← m3]
      funext x; by_cases hx : x = l'.arr <;> simp [upd, hx]
    refine ⟨_, _, _, ?_, .noMemory (ps := ps) (h' := ⟨upd h''.mem l'.arr (h''.mem l'.arr), h''.tick⟩) (l' := l') hfit f3 (by simp only [hsame]; exact i1)⟩
    simp only [M.bind, e0, Option.bind_some, if_neg h2, if_neg h3, ek, if_neg h4, e1, e2, e3, e4, M.pure]
  · have a3 : Arr h''.mem l'.arr ps (s.map (·.url)) (k + 1) := hk ▸ i1.arr.mono fun x hx => k3 x (by
      simp only [List.cons_append, List.mem_cons, List.mem_append] at hx ⊢
      rcases hx with hx | hx
      · exact .inl hx
      · exact .inr (.inl hx))
    have hnd : (l'.arr :: ps).Nodup := (List.nodup_append.1 i1.own.nodup).1
    obtain ⟨h3', e4, a4, o4, k4⟩ := a3.push o3 (by simp) (fun x hx => by simp [hx]) hnd (s := e.url) v3
    rw [show ps.length = l'.flags.length by omega] at e4
    refine ⟨_, { l' with flags := l'.flags ++ [(e.read, e.write)] }, h3', ?_, .added (ps := ps ++ [c]) hfit ⟨?_, ?_, ?_, hmin, hmax, ?_⟩⟩
    · simp only [M.bind, e0, Option.bind_some, if_neg h2, if_neg h3, ek, if_neg h4, e1, e2, e3, e4, M.pure]
    · have : l'.cap - (ps ++ [c]).length = k := by simp; omega
      simp only [List.map_append, List.map_cons, List.map_nil]
      rw [this]
      exact a4
    · simp only [i1.flags, List.map_append, List.map_cons, List.map_nil]
    · simp only [List.length_append, List.length_singleton]; omega
    · refine o4.perm ?_
      simp only [List.cons_append, List.append_assoc, List.singleton_append]
      exact (List.Perm.swap _ _ _).trans ((List.perm_middle (l₁ := ps)).symm.cons _)

theorem loadStr_out {h0 : Mem} {p : Nat} {t : Bytes} (hp : h0 p = some (.str t)) (h' : Heap) (own) (o : Owned h0 h'.mem own) :
    loadStr p h' = some (t, h') := by
  have : h'.mem p = some (.str t) := by
    rw [o.same p fun hm => by have := o.fresh p hm; rw [hp] at this; simp at this]; exact hp
  simp only [loadStr, this]

theorem urlAt_ok {h0 : Mem} {h : Heap} {l s ps} (i : Inv h0 h.mem l s ps) (n : Nat) :
    (s[n]? = none ∧ urlAt l n h = some (none, h)) ∨
    ∃ e p, s[n]? = some e ∧ p ∈ ps ∧ h.mem p = some (.str e.url) ∧ urlAt l n h = some (some p, h) := by
  unfold urlAt
  have hc := i.count
  have hl := i.len
  by_cases hn : n ≥ l.flags.length
  · rw [if_pos hn]
    exact .inl ⟨List.getElem?_eq_none (by omega), rfl⟩
  · rw [if_neg hn]
    have aux : ∀ (ps : List Nat) (s : List Entry) (n : Nat), Strings h.mem ps (s.map (·.url)) → n < s.length →
        ∃ e p, s[n]? = some e ∧ ps[n]? = some p ∧ h.mem p = some (.str e.url) := by
      intro ps
      induction ps with
      | nil =>
        intro s n hs hn
        cases s with
        | nil => simp at hn
        | cons => cases hs
      | cons p ps ih =>
        intro s n hs hn
        cases s with
        | nil => cases hs
        | cons e s =>
          cases hs with
          | cons hp ht =>
            cases n with
            | zero => exact ⟨e, p, rfl, rfl, hp⟩
            | succ n =>
              obtain ⟨e', p', h1, h2, h3⟩ := ih s n ht (by simpa using hn)
              exact ⟨e', p', by simpa using h1, by simpa using h2, h3⟩
    obtain ⟨e, p, h1, h2, h3⟩ := aux ps s n i.arr.strs (by omega)
    refine .inr ⟨e, p, h1, List.mem_of_getElem? h2, h3, ?_⟩
    simp only [loadPtr, i.arr.arr]
    rw [List.getElem?_append_left (by simp; omega), List.getElem?_map, h2]
    rfl

theorem call_ok {A : Alloc} (hA : Fresh A) {h0 : Mem} {h : Heap} {l s ps} (i : Inv h0 h.mem l s ps) {c : Call} (hc : Call.Sound h0 c) :
    ∃ r l' h' s' ps', call A l c h = some ((r, l'), h') ∧ Did A h0 s c r s' ∧ Inv h0 h'.mem l' s' ps' := by
  have key : ∀ (url : M Bytes) (t : Bytes), Call.text h0 s c = some t →
      (∀ (h' : Heap) own, Owned h0 h'.mem own → (∀ x ∈ ps, h'.mem x = h.mem x) → url h' = some (t, h')) →
      ∃ r l' h' s' ps', add A l url c.read c.write h = some ((r, l'), h') ∧ Did A h0 s c r s' ∧ Inv h0 h'.mem l' s' ps' := by
    intro url t ht hu
    obtain ⟨r, l', h', e1, ha⟩ := add_ok hA i ⟨t, c.read, c.write⟩ hu
    cases ha with
    | refused hf => exact ⟨_, _, _, s, ps, e1, .refused fun t' ht' => by rw [ht] at ht'; cases ht'; exact hf, i⟩
    | noMemory hf hm i' => exact ⟨_, _, _, s, _, e1, .noMemory ht hf hm, i'⟩
    | added hf i' => exact ⟨_, _, _, _, _, e1, .added ht hf, i'⟩
  unfold call
  cases hs : c.src with
  | text p =>
    obtain ⟨t, ht⟩ := hc p hs
    exact key _ t (by simp [Call.text, hs, ht]) fun h' own o _ => loadStr_out ht h' own o
  | entry n =>
    rcases urlAt_ok i n with ⟨h1, h2⟩ | ⟨e, p, h1, h2, h3, h4⟩
    · refine ⟨_, l, h, s, ps, ?_, .refused fun t ht => ?_, i⟩
      · simp only [M.bind, h2, Option.bind_some, M.pure]
      · simp [Call.text, hs, h1] at ht
    · simp only [M.bind, h4, Option.bind_some]
      refine key _ e.url (by simp [Call.text, hs, h1]) fun h' own o hk => ?_
      simp only [loadStr, hk p h2, h3]

theorem calls_ok {A : Alloc} (hA : Fresh A) {h0 : Mem} : ∀ (cs : List Call) {h : Heap} {l s ps}, Inv h0 h.mem l s ps →
    (∀ c ∈ cs, Call.Sound h0 c) →
    ∃ rs l' h' s' ps', calls A l cs h = some ((rs, l'), h') ∧ Went A h0 s cs rs s' ∧ Inv h0 h'.mem l' s' ps' := by
  intro cs
  induction cs with
  | nil => intro h l s ps i _; exact ⟨[], l, h, s, ps, rfl, .nil, i⟩
  | cons c cs ih =>
    intro h l s ps i hc
    obtain ⟨r, l1, h1, s1, ps1, e1, d1, i1⟩ := call_ok hA i (hc c (by simp))
    obtain ⟨rs, l2, h2, s2, ps2, e2, d2, i2⟩ := ih i1 fun c hm => hc c (by simp [hm])
    refine ⟨r :: rs, l2, h2, s2, ps2, ?_, .cons d1 d2, i2⟩
    simp only [calls, M.bind, e1, e2, Option.bind_some, M.pure]

theorem addTags_ok {A : Alloc} (hA : Fresh A) {h0 : Mem} : ∀ (ts : List (List Bytes)) {h : Heap} {l s ps}, Inv h0 h.mem l s ps →
    (∃ h', addTags A l ts h = some ((some .memory, none), h') ∧ h'.mem = h0 ∧ Refused A h0) ∨
    ∃ l' h' ps', addTags A l ts h = some ((none, some l'), h') ∧ Inv h0 h'.mem l' (keep s (picked ts)) ps' := by
  intro ts
  induction ts with
  | nil => intro h l s ps i; exact .inr ⟨l, h, ps, rfl, i⟩
  | cons t ts ih =>
    intro h l s ps i
    simp only [addTags, picked]
    cases hr : readTag t with
    | none => rw [List.filterMap_cons_none hr]; exact ih i
    | some e =>
      rw [List.filterMap_cons_some hr]
      have hk : keep s (e :: ts.filterMap readTag) = keep (if validUrl e.url = true ∧ s.length < 256 ∧ ∀ x ∈ s, x.url ≠ e.url then s ++ [e] else s) (ts.filterMap readTag) := rfl
      rw [hk]
      have hfl := says_flags ((readTag_iff t e).1 hr)
      obtain ⟨r, l', h', e1, ha⟩ := add_ok hA i (url := M.pure e.url) e fun _ _ _ _ => rfl
      simp only [M.bind, e1, Option.bind_some]
      cases ha with
      | refused hf =>
        rw [if_neg (by simp), if_neg (fun hx => hf ⟨(validUrl_iff _).1 hx.1, hfl, hx.2⟩)]
        exact ih i
      | noMemory hf hm i' =>
        obtain ⟨h2, e2, m2⟩ := destroy_has i'.has
        rw [if_pos rfl]
        refine .inl ⟨h2, ?_, m2, hm⟩
        simp only [M.bind, e2, Option.bind_some, M.pure]
      | added hf i' =>
        rw [if_neg (by simp), if_pos ⟨(validUrl_iff _).2 hf.1, hf.2.2⟩]
        exact ih i'

theorem copyUrls_ok {A : Alloc} (hA : Fresh A) {hb : Mem} {arr u n : Nat} {g : Entry → Bool} : ∀ (es : List Entry) (qs : List Nat) (pre rest : List (Option Nat))
    {h : Heap} {ps : List Nat} {l : List Bytes},
    hb arr = some (.ptrs (pre ++ qs.map some ++ rest)) → Strings hb qs (es.map (·.url)) →
    Arr h.mem u ps l (es.filter g).length → Owned hb h.mem (u :: ps) → n = ps.length + (es.filter g).length →
    (∃ h', copyUrls A arr u n (es.map g) pre.length ps.length h = some (false, h') ∧ h'.mem = hb ∧ Refused A hb) ∨
    ∃ h' ps', copyUrls A arr u n (es.map g) pre.length ps.length h = some (true, h') ∧ ps'.length = n ∧
      Arr h'.mem u ps' (l ++ (es.filter g).map (·.url)) 0 ∧ Owned hb h'.mem (u :: ps') := by
  intro es
  induction es with
  | nil =>
    intro qs pre rest h ps l _ hs ha ho hn
    exact .inr ⟨h, ps, rfl, by simpa using hn.symm, by simpa using ha, ho⟩
  | cons e es ih =>
    intro qs pre rest h ps l harr hs ha ho hn
    cases hs with
    | @cons q _ qs _ hq ht =>
      simp only [List.map_cons, copyUrls]
      by_cases hj : ps.length ≥ n
      · rw [if_pos hj]
        have h0 : ((e :: es).filter g) = [] := List.length_eq_zero_iff.1 (by omega)
        rw [h0] at ha hn ⊢
        exact .inr ⟨h, ps, rfl, by simpa using hn.symm, by simpa using ha, ho⟩
      rw [if_neg hj]
      have harr' : hb arr = some (.ptrs ((pre ++ [some q]) ++ qs.map some ++ rest)) := by rw [harr]; simp
      cases hg : g e with
      | false =>
        have hf : (e :: es).filter g = es.filter g := by simp [hg]
        rw [hf] at ha hn ⊢
        have := ih qs (pre ++ [some q]) rest harr' ht ha ho hn
        rw [List.length_append, List.length_singleton] at this
        simp only [Bool.false_eq_true, if_false]
        exact this
      | true =>
        have hf : (e :: es).filter g = e :: es.filter g := by simp [hg]
        rw [hf] at ha hn ⊢
        rw [List.length_cons] at ha hn
        have out : ∀ {x : Nat} {o : Obj}, hb x = some o → ∀ {m own}, Owned hb m own → m x = some o := by
          intro x o hx m own ow
          rw [ow.same x fun hm => by have := ow.fresh x hm; rw [hx] at this; simp at this]
          exact hx
        have h1 : (pre ++ List.map some (q :: qs) ++ rest)[pre.length]? = some (some q) := by simp
        have e1 : loadPtr (some arr) pre.length h = some (some q, h) := by
          simp only [loadPtr, out harr ho, h1, Option.map_some]
        have e2 : loadStr q h = some (e.url, h) := by simp only [loadStr, out hq ho]
        simp only [if_true, M.bind, e1, e2, Option.bind_some]
        rcases allocP hA ho (.str e.url) with ⟨h3, e3, m3, f3⟩ | ⟨c, h3, e3, v3, o3, k3⟩
        · left
          have ha3 : Arr h3.mem u ps l ((es.filter g).length + 1) := by rw [m3]; exact ha
          have e4 : storePtr u ps.length none h3 = some ((), ⟨upd h3.mem u (some (.ptrs (ps.map some ++ List.replicate ((es.filter g).length + 1) none))), h3.tick⟩) := by
            unfold storePtr
            rw [ha3.arr]
            simp only [List.length_append, List.length_map, List.length_replicate, List.replicate_succ]
            rw [if_pos (by simp)]
            congr 4
            have := Nostr.Filter.Own.set_pre (ps.map some) none none (List.replicate (es.filter g).length none)
            rw [List.length_map] at this
            rw [this]
          have m4 : upd h3.mem u (some (.ptrs (ps.map some ++ List.replicate ((es.filter g).length + 1) none))) = h3.mem := by
            rw [← ha3.arr]; funext x; unfold upd; split <;> simp_all
          rw [m4] at e4
          have o3 : Owned hb h3.mem ((u :: ps) ++ []) := by rw [m3]; simpa using ho
          obtain ⟨h5, e5, m5, o5⟩ := Owned.freeStrings o3 ha3.strArr
          simp only [freeStrings, M.bind] at e5
          refine ⟨h5, ?_, o5.eq, f3⟩
          simp only [e3, e4, Option.bind_some]
          cases h6 : freePtrs (some u) ps.length 0 ⟨h3.mem, h3.tick⟩ with
          | none => rw [show h3 = ⟨h3.mem, h3.tick⟩ from rfl, h6] at e5; simp at e5
          | some r =>
            rw [show h3 = ⟨h3.mem, h3.tick⟩ from rfl, h6] at e5
            have e5 : free (some u) r.2 = some ((), h5) := e5
            simp only [M.bind, h6, Option.bind_some, e5, M.pure]
        · have ha3 : Arr h3.mem u ps l ((es.filter g).length + 1) := ha.mono fun x hx => k3 x hx
          obtain ⟨h4, e4, a4, o4, k4⟩ := ha3.push o3 (by simp) (fun x hx => by simp [hx]) ho.nodup v3
          have o4' : Owned hb h4.mem (u :: (ps ++ [c])) := o4.perm (by
            refine (List.Perm.swap u c ps).trans (List.Perm.cons u ?_)
            exact (List.perm_append_singleton c ps).symm)
          have := ih qs (pre ++ [some q]) rest harr' ht a4 o4' (by simp only [List.length_append, List.length_singleton]; omega)
          rw [List.length_append, List.length_singleton, List.length_append, List.length_singleton] at this
          simp only [e3, e4, Option.bind_some]
          rcases this with h5 | ⟨h5, ps', e5, l5, a5, o5⟩
          · exact .inl h5
          · refine .inr ⟨h5, ps', e5, l5, ?_, o5⟩
            simpa using a5

/-! ## C152 -/

/-- C152: a program creates a relay list, calls `add` any number of times — with texts of its own, or with the URL of an
entry that it got from the list itself — and memory may run out at any allocation. Creating the list fails only
if memory ran out, and then leaves nothing behind. Otherwise no call touches memory that is not live; each call returns
what the entries demand and reports lack of memory only if there was such; a call that fails changes no entry; the list
consists of exactly its own blocks, and freeing it gives back the memory as it was. -/
theorem C152_history {A : Alloc} (hA : Fresh A) (h : Heap) {cs : List Call} (hc : ∀ c ∈ cs, Call.Sound h.mem c) :
    (∃ h', create A h = some (none, h') ∧ h'.mem = h.mem ∧ Refused A h.mem) ∨
    ∃ l h1 rs l' h2 s h3, create A h = some (some l, h1) ∧ Has h.mem h1.mem l [] ∧
      calls A l cs h1 = some ((rs, l'), h2) ∧ Went A h.mem [] cs rs s ∧ Has h.mem h2.mem l' s ∧
      destroy l' h2 = some ((), h3) ∧ h3.mem = h.mem := by
  rcases create_ok hA h with h1 | ⟨l, h1, e1, i1⟩
  · exact .inl h1
  · obtain ⟨rs, l', h2, s, ps, e2, w2, i2⟩ := calls_ok hA cs i1 hc
    obtain ⟨h3, e3, m3⟩ := destroy_has i2.has
    exact .inr ⟨l, h1, rs, l', h2, s, h3, e1, i1.has, e2, w2, i2.has, e3, m3⟩

/-- C152: reading a relay list from any event. A list that is handed out consists of its own blocks, holds the first
entry of each valid URL, and freeing it gives back the memory as it was; every failure leaves nothing behind, and
lack of memory is reported only if there was such. -/
theorem C152_from_event {A : Alloc} (hA : Fresh A) (e : Event.Event) (out : Option HList) (h : Heap) :
    (e.kind ≠ 10002 ∧ fromEvent A e out h = some ((some .invalidEvent, out), h)) ∨
    (e.kind = 10002 ∧ ∃ h', fromEvent A e out h = some ((some .memory, none), h') ∧ h'.mem = h.mem ∧ Refused A h.mem) ∨
    (e.kind = 10002 ∧ ∃ l h' s h'', fromEvent A e out h = some ((none, some l), h') ∧ Has h.mem h'.mem l s ∧
      (∀ es, Picks e.tags es →
        s = (firsts (es.filter fun x => @decide (ValidUrl x.url) (Classical.propDecidable _))).take 256) ∧
      destroy l h' = some ((), h'') ∧ h''.mem = h.mem) := by
  unfold fromEvent
  by_cases hk : e.kind = 10002
  · rw [if_neg (by simpa using hk)]
    right
    rcases create_ok hA h with ⟨h1, e1, m1, f1⟩ | ⟨l, h1, e1, i1⟩
    · refine .inl ⟨hk, h1, ?_, m1, f1⟩
      simp only [M.bind, e1, Option.bind_some, M.pure]
    · simp only [M.bind, e1, Option.bind_some]
      rcases addTags_ok hA e.tags i1 with ⟨h2, e2, m2, f2⟩ | ⟨l', h2, ps, e2, i2⟩
      · exact .inl ⟨hk, h2, e2, m2, f2⟩
      · obtain ⟨h3, e3, m3⟩ := destroy_has i2.has
        refine .inr ⟨hk, l', h2, _, h3, e2, i2.has, fun es hes => ?_, e3, m3⟩
        rw [keep_eq _ _ (by simp), picks_unique hes, List.nil_append]
        congr 2
        refine List.filter_congr fun x _ => ?_
        have := validUrl_iff x.url
        cases hx : validUrl x.url
        · simp [this.symm, hx]
        · simp [this.symm, hx]
  · rw [if_pos hk]
    exact .inl ⟨hk, rfl⟩

/-! ## C155 -/

/-- C155: asking a relay list for its read relays or its write relays. What is handed out is a copy of the URLs of
exactly the entries with that flag, in their order, with their number; the memory has exactly the copies more, and
releasing them gives back the memory as it was; when memory runs out nothing is left behind, the pointer is NULL and
the number is as it was. The list is not changed. -/
theorem C155_urls {A : Alloc} (hA : Fresh A) {h0 : Mem} {h : Heap} {l : HList} {s : List Entry} (i : Has h0 h.mem l s) (rd : Bool) (out : Nat) :
    (∃ h', byFlag A l rd out h = some ((some .memory, none, out), h') ∧ h'.mem = h.mem ∧ Refused A h.mem) ∨
    ∃ p n h' own h'', byFlag A l rd out h = some ((none, p, n), h') ∧
      StrArr h'.mem p n ((s.filter fun e => if rd then e.read else e.write).map (·.url)) own ∧ Owned h.mem h'.mem own ∧
      Has h0 (without h'.mem own) l s ∧
      freeUrls p n h' = some ((), h'') ∧ h''.mem = h.mem := by
  obtain ⟨qs, hold, ow⟩ := i
  have i : Has h0 h.mem l s := ⟨qs, hold, ow⟩
  obtain ⟨rest, harr⟩ := hold.arr
  unfold byFlag
  have hfs : (l.flags.map fun f => if rd then f.1 else f.2) = s.map fun e => if rd then e.read else e.write := by
    rw [hold.flags, List.map_map]; rfl
  have hn : ((s.map fun e => if rd then e.read else e.write).filter id).length = (s.filter fun e => if rd then e.read else e.write).length := by
    rw [List.filter_map, List.length_map]; rfl
  rw [hfs, hn]
  by_cases h1 : (s.filter fun e => if rd then e.read else e.write).length = 0
  · rw [if_pos h1]
    refine .inr ⟨none, 0, h, [], h, rfl, ?_, Owned.nil _, ?_, rfl, rfl⟩
    · rw [List.length_eq_zero_iff.1 h1]; exact .null
    · rw [without_nil]; exact i
  rw [if_neg h1]
  rcases allocP hA (Owned.nil h.mem) (.ptrs (List.replicate (s.filter fun e => if rd then e.read else e.write).length none)) with ⟨h2, e2, m2, f2⟩ | ⟨u, h2, e2, v2, o2, k2⟩
  · left
    refine ⟨h2, ?_, m2, f2⟩
    simp only [M.bind, e2, Option.bind_some, M.pure]
  · rcases copyUrls_ok hA (hb := h.mem) (u := u) (n := (s.filter fun e => if rd then e.read else e.write).length) (g := fun e => if rd then e.read else e.write)
        s qs [] rest (ps := []) (l := []) (by simpa using harr) hold.urls ⟨by simpa using v2, .nil⟩ o2 (by simp) with ⟨h3, e3, m3, f3⟩ | ⟨h3, ps, e3, l3, a3, o3⟩
    · left
      refine ⟨h3, ?_, m3, f3⟩
      simp only [List.length_nil] at e3
      simp only [M.bind, e2, e3, Option.bind_some, M.pure, Bool.false_eq_true, if_false]
    · right
      have sa := a3.strArr
      rw [l3, List.nil_append] at sa
      obtain ⟨h4, e4, m4, o4⟩ := Owned.freeStrings (b := []) (by simpa using o3) sa
      refine ⟨some u, _, h3, u :: ps, h4, ?_, sa, o3, ?_, e4, o4.eq⟩
      · simp only [List.length_nil] at e3
        simp only [M.bind, e2, e3, Option.bind_some, M.pure, if_true]
      · rw [without_fresh o3.fresh o3.same]; exact i

/-! ## Cases -/

/-- Memory with two URLs of the caller at 1000 and 1001. -/
def start : Heap := ⟨fun a => if a = 1000 then some (.str c!"wss://a") else if a = 1001 then some (.str c!"ws://b") else none, 0⟩

/-- Addresses one after the other; the allocations from `k` on fail. -/
def upTo (k : Nat) : Alloc := fun m n => if n < k ∧ m n = none then some n else none

/-- The statuses of some calls and whether the memory is as before in the end. -/
def outcome (k : Nat) (cs : List Call) : Option (List (Option Err) × Bool) :=
  match create (upTo k) start with
  | some (some l, h1) => match calls (upTo k) l cs h1 with
    | some ((rs, l'), h2) => match destroy l' h2 with
      | some (_, h3) => some (rs, (List.range 8).all fun a => (h3.mem a).isNone)
      | none => none
    | none => none
  | _ => none

example : ∀ c ∈ [(⟨.text 1000, true, true⟩ : Call), ⟨.entry 0, true, true⟩, ⟨.text 1001, true, false⟩], Call.Sound start.mem c := by
  intro c hc p hp
  simp only [List.mem_cons, List.not_mem_nil, or_false] at hc
  rcases hc with rfl | rfl | rfl
  · cases hp; exact ⟨_, rfl⟩
  · cases hp
  · cases hp; exact ⟨_, rfl⟩

example : outcome 9 [⟨.text 1000, true, true⟩, ⟨.entry 0, true, true⟩, ⟨.entry 5, true, true⟩, ⟨.text 1001, true, false⟩] =
    some ([none, some .invalidParam, some .invalidParam, none], true) := by decide +kernel

example : outcome 3 [⟨.text 1000, true, true⟩, ⟨.text 1001, true, false⟩] = some ([none, some .memory], true) := by decide +kernel

/-- The URLs for reading of a list of two, or the status, and whether releasing everything restores the memory. -/
def reads (k : Nat) : Option (Option Err × Nat × Bool) :=
  match create (upTo 9) start with
  | some (some l, h1) => match calls (upTo 9) l [⟨.text 1000, true, false⟩, ⟨.text 1001, false, true⟩] h1 with
    | some ((_, l'), h2) => match byFlag (upTo k) l' true 77 h2 with
      | some ((r, p, n), h3) => match freeUrls p (if r = none then n else 0) h3 with
        | some (_, h4) => match destroy l' h4 with
          | some (_, h5) => some (r, n, (List.range 9).all fun a => (h5.mem a).isNone)
          | none => none
        | none => none
      | none => none
    | none => none
  | _ => none

example : reads 9 = some (none, 1, true) := by decide +kernel

example : reads 5 = some (some .memory, 77, true) := by decide +kernel

example : (create (upTo 1) start).map (·.1) = some none := by decide +kernel

end Nostr.Own.Relays.Props
