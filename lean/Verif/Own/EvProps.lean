import Verif.Own.Basic
import Verif.Own.Ev
import Verif.Filter.HeapProps

/-! # Property theorems: memory of an event (C136, C137) -/

namespace Nostr.Own.Ev.Props
open Nostr Nostr.Heap Nostr.Own Nostr.Own.Ev Nostr.Event Nostr.Json

/-! ## Specification -/

/-- The blocks of an event. -/
def blocks (e : HEv) : List Nat := e.content.toList ++ (e.memory :: e.arena :: (e.tags.toList ++ [e.self]))

/-- Memory is `h0` and, apart from it, the blocks of the event and `extra`; the content is `c`. -/
structure Held (h0 m : Mem) (e : HEv) (c : Option Bytes) (extra : List Nat) : Prop where
  own : Owned h0 m (blocks e ++ extra)
  text : e.content.bind m = c.map .str

/-- The histories of an event. `h0` is the memory without the event, `h` the memory, `v` the values of the event. The event
is created; then, in any order, tags are added, the content is set to texts that are not the event's own, and
the caller does what they like with the memory that is not the event's. -/
inductive Hist (A : Alloc) (cfg : Option Config.Config) : Mem → Heap → HEv → Event → Prop
  | create {h h' : Heap} {e : HEv} {now : Int} : create A h = some (some e, h') →
      Hist A cfg h.mem h' e { zero with createdAt := now }
  | set {h0 : Mem} {h h' : Heap} {e e' : HEv} {v : Event} {p : Nat} {s : Bytes} {r : Option Err} : Hist A cfg h0 h e v →
      h0 p = some (.str s) → setContent A e p h = some ((r, e'), h') →
      Hist A cfg h0 h' e' { v with content := if r = none then some s else none }
  | add {h0 : Mem} {h h' : Heap} {e e' : HEv} {v v' : Event} {vs : List Bytes} {grow : Bool} {r : Option Err} :
      Hist A cfg h0 h e v → addTag A cfg grow v vs e h = some ((r, v', e'), h') → Hist A cfg h0 h' e' v'
  | caller {h0 h0' : Mem} {h h' : Heap} {e : HEv} {v : Event} : Hist A cfg h0 h e v →
      (∀ a, h0 a = none → h.mem a ≠ none → h0' a = none ∧ h'.mem a = h.mem a) →
      (∀ a, ¬ (h0 a = none ∧ h.mem a ≠ none) → h'.mem a = h0' a) → Hist A cfg h0' h' e v

/-! ## Lemmas -/

theorem resizeP {A : Alloc} (hA : Fresh A) {h0 : Mem} {h : Heap} {p : Option Nat} {b : List Nat}
    (o : Owned h0 h.mem (p.toList ++ b)) :
    (∃ h', resize A p h = some (none, h') ∧ h'.mem = h.mem ∧ Refused A h0) ∨
    ∃ c h', resize A p h = some (some c, h') ∧ Owned h0 h'.mem (c :: b) ∧ ∀ x ∈ b, h'.mem x = h.mem x := by
  cases p with
  | none =>
    rcases allocP hA o blob with h | ⟨c, h', e, -, o', k⟩
    · exact .inl h
    · exact .inr ⟨c, h', e, o', k⟩
  | some a =>
    have ha : (h.mem a).isSome := Option.isSome_iff_ne_none.2 (o.live a (by simp))
    unfold resize
    simp only [ha, if_true]
    have hu : upd h.mem a none = without h.mem [a] := by funext x; by_cases h : x = a <;> simp [upd, without, h]
    have o1 : Owned h0 (upd h.mem a none) b := by rw [hu]; exact Owned.drop (a := [a]) o
    cases hc : A (upd h.mem a none) h.tick with
    | none => exact .inl ⟨_, rfl, rfl, (Refused.here hc).back o1.same⟩
    | some c =>
      refine .inr ⟨c, _, rfl, o1.new (hA _ _ _ hc) _, fun x hx => ?_⟩
      have h1 : x ≠ c := by rintro rfl; exact o1.live _ hx (hA _ _ _ hc)
      have h2 : x ≠ a := by rintro rfl; exact (List.nodup_cons.1 o.nodup).1 hx
      simp only [upd_other _ _ h1, upd_other _ _ h2]

theorem text_mono {m m' : Mem} {p : Option Nat} {c : Option Bytes} (h : p.bind m = c.map .str)
    (k : ∀ x ∈ p.toList, m' x = m x) : p.bind m' = c.map .str := by
  cases p with
  | none => exact h
  | some a => simpa [k a (by simp)] using h

theorem create_ok {A : Alloc} (hA : Fresh A) {h0 : Mem} {h : Heap} {extra : List Nat} (o : Owned h0 h.mem extra) :
    (∃ h', create A h = some (none, h') ∧ Owned h0 h'.mem extra ∧ Refused A h0) ∨
    ∃ e h', create A h = some (some e, h') ∧ Held h0 h'.mem e none extra ∧ e.content = none ∧ e.tags = none := by
  unfold create
  simp only [M.bind]
  rcases allocP hA o blob with ⟨h1, e1, m1, f1⟩ | ⟨b1, h1, e1, -, o1, k1⟩
  · simp only [M.bind, e1, Option.bind_some, M.pure]
    exact .inl ⟨h1, rfl, by rw [m1]; exact o, f1⟩
  · simp only [M.bind, e1, Option.bind_some]
    rcases allocP hA o1 blob with ⟨h2, e2, m2, f2⟩ | ⟨b2, h2, e2, -, o2, k2⟩
    · simp only [M.bind, e2, Option.bind_some]
      obtain ⟨h3, e3, o3, -⟩ := freeP (h := h2) (p := some b1) (by rw [m2]; exact o1)
      simp only [M.bind, e3, Option.bind_some, M.pure]
      exact .inl ⟨h3, rfl, o3, f2⟩
    · simp only [M.bind, e2, Option.bind_some]
      rcases allocP hA o2 blob with ⟨h3, e3, m3, f3⟩ | ⟨b3, h3, e3, -, o3, k3⟩
      · simp only [M.bind, e3, Option.bind_some]
        obtain ⟨h4, e4, o4, -⟩ := freeP (h := h3) (p := some b2) (by rw [m3]; exact o2)
        obtain ⟨h5, e5, o5, -⟩ := freeP (h := h4) (p := some b1) o4
        simp only [M.bind, e4, e5, Option.bind_some, M.pure]
        exact .inl ⟨h5, rfl, o5, f3⟩
      · simp only [M.bind, e3, Option.bind_some, M.pure]
        exact .inr ⟨⟨b1, none, b2, b3, none⟩, h3, rfl, ⟨o3, rfl⟩, rfl, rfl⟩

theorem destroy_ok {h0 : Mem} {h : Heap} {e : HEv} {c extra} (d : Held h0 h.mem e c extra) :
    ∃ h', destroy e h = some ((), h') ∧ Owned h0 h'.mem extra := by
  unfold destroy
  simp only [M.bind]
  have o : Owned h0 h.mem (e.content.toList ++ (e.memory :: (e.arena :: (e.tags.toList ++ (e.self :: extra))))) := by
    simpa [blocks] using d.own
  obtain ⟨h1, e1, o1, -⟩ := freeP o
  obtain ⟨h2, e2, o2, -⟩ := freeP (p := some e.memory) o1
  obtain ⟨h3, e3, o3, -⟩ := freeP (p := some e.arena) o2
  obtain ⟨h4, e4, o4, -⟩ := freeP o3
  obtain ⟨h5, e5, o5, -⟩ := freeP (p := some e.self) o4
  simp only [M.bind, e1, e2, e3, e4, Option.bind_some]
  exact ⟨h5, e5, o5⟩

theorem setContent_ok {A : Alloc} (hA : Fresh A) {h0 : Mem} {h : Heap} {e : HEv} {c extra} (d : Held h0 h.mem e c extra)
    {p : Nat} {s : Bytes} (hp : h0 p = some (.str s)) :
    (∃ h', setContent A e p h = some ((some .memory, { e with content := none }), h') ∧ Refused A h0 ∧
      Held h0 h'.mem { e with content := none } none extra) ∨
    ∃ a h', setContent A e p h = some ((none, { e with content := some a }), h') ∧
      Held h0 h'.mem { e with content := some a } (some s) extra := by
  unfold setContent
  simp only [M.bind]
  have o : Owned h0 h.mem (e.content.toList ++ ((e.memory :: e.arena :: (e.tags.toList ++ [e.self])) ++ extra)) := by
    simpa [blocks] using d.own
  obtain ⟨h1, e1, o1, -⟩ := freeP o
  have hp1 : h1.mem p = some (.str s) := by
    rw [o1.same p fun hm => by rw [o1.fresh p hm] at hp; cases hp]; exact hp
  have hl : loadStr p h1 = some (s, h1) := by unfold loadStr; rw [hp1]
  simp only [M.bind, e1, hl, Option.bind_some]
  rcases allocP hA o1 (.str s) with ⟨h2, e2, m2, f2⟩ | ⟨a, h2, e2, a2, o2, -⟩
  · left
    simp only [M.bind, e2, Option.bind_some, M.pure, if_true]
    exact ⟨h2, rfl, f2, ⟨by rw [m2]; simpa [blocks] using o1, rfl⟩⟩
  · right
    simp only [M.bind, e2, Option.bind_some, M.pure]
    exact ⟨a, h2, rfl, ⟨by simpa [blocks] using o2, by simpa using a2⟩⟩

theorem addPlace_ok {A : Alloc} (hA : Fresh A) {h0 : Mem} {h : Heap} {e : HEv} {c extra} (d : Held h0 h.mem e c extra) :
    (∃ h', addPlace A e h = some ((some .memory, e), h') ∧ h'.mem = h.mem ∧ Refused A h0) ∨
    ∃ t h', addPlace A e h = some ((none, { e with tags := some t }), h') ∧ Held h0 h'.mem { e with tags := some t } c extra := by
  unfold addPlace
  simp only [M.bind]
  have o : Owned h0 h.mem (e.tags.toList ++ (e.content.toList ++ (e.memory :: e.arena :: (e.self :: extra)))) := by
    refine d.own.perm ?_
    simp only [blocks, List.append_assoc, List.cons_append, List.nil_append]
    rw [← List.append_assoc e.tags.toList]
    refine List.Perm.trans ?_ (List.Perm.append_right _ List.perm_append_comm)
    rw [List.append_assoc]
    refine List.Perm.append_left _ ?_
    exact (((List.perm_middle (l₁ := e.tags.toList)).symm.cons _).trans (List.perm_middle (l₁ := e.tags.toList)).symm)
  rcases resizeP hA o with ⟨h1, e1, m1, f1⟩ | ⟨t, h1, e1, o1, k1⟩
  · left
    simp only [M.bind, e1, Option.bind_some, M.pure]
    exact ⟨h1, rfl, m1, f1⟩
  · right
    simp only [M.bind, e1, Option.bind_some, M.pure]
    refine ⟨t, h1, rfl, ⟨o1.perm ?_, text_mono d.text fun x hx => k1 x (List.mem_append_left _ hx)⟩⟩
    simp only [blocks, Option.toList_some, List.append_assoc, List.cons_append, List.nil_append]
    rw [← List.cons_append]
    refine (List.Perm.append_right (l₁ := t :: e.content.toList) (l₂ := e.content.toList ++ [t]) _ ?_).trans ?_
    · exact (List.perm_append_singleton t e.content.toList).symm
    · rw [List.append_assoc]
      refine List.Perm.append_left _ ?_
      exact (List.Perm.swap _ _ _).trans ((List.Perm.swap _ _ _).cons _)

/-- What adding a tag does. -/
theorem addTag_ok {A : Alloc} (hA : Fresh A) {h0 : Mem} {h : Heap} {e : HEv} {v : Event} {extra} (cfg : Option Config.Config)
    (grow : Bool) (vs : List Bytes) (d : Held h0 h.mem e v.content extra) :
    (∃ x e' h', addTag A cfg grow v vs e h = some ((some x, v, e'), h') ∧ Held h0 h'.mem e' v.content extra ∧
      (Event.addTag cfg v vs = .err x ∨ (Refused A h0 ∧ x = .memory))) ∨
    ∃ w e' h', addTag A cfg grow v vs e h = some ((none, w, e'), h') ∧ Held h0 h'.mem e' w.content extra ∧
      Event.addTag cfg v vs = .ok w := by
  unfold addTag
  cases hv : Event.addTag cfg v vs with
  | ub =>
    unfold Event.addTag at hv
    split at hv
    · cases hv
    · split at hv <;> cases hv
  | err x => exact .inl ⟨x, e, h, rfl, d, .inl rfl⟩
  | ok w =>
    have hw : w.content = v.content := by
      unfold Event.addTag at hv
      split at hv
      · cases hv
      · split at hv
        · cases hv
        · cases hv; rfl
    have fin : ∀ {e : HEv} {h : Heap}, Held h0 h.mem e v.content extra →
        (∃ x e' h', (M.bind (addPlace A e) fun r => M.pure (r.1, if r.1 = none then w else v, r.2)) h = some ((some x, v, e'), h') ∧
          Held h0 h'.mem e' v.content extra ∧ ((Res.ok w : Res Event) = .err x ∨ (Refused A h0 ∧ x = .memory))) ∨
        ∃ w' e' h', (M.bind (addPlace A e) fun r => M.pure (r.1, if r.1 = none then w else v, r.2)) h = some ((none, w', e'), h') ∧
          Held h0 h'.mem e' w'.content extra ∧ (Res.ok w : Res Event) = .ok w' := by
      intro e h d
      simp only [M.bind]
      rcases addPlace_ok hA d with ⟨h1, e1, m1, f1⟩ | ⟨t, h1, e1, d1⟩
      · left
        simp only [M.bind, e1, Option.bind_some, M.pure]
        exact ⟨.memory, e, h1, by simp, by rw [m1]; exact d, .inr ⟨f1, rfl⟩⟩
      · right
        simp only [M.bind, e1, Option.bind_some, M.pure]
        exact ⟨w, _, h1, rfl, by rw [hw]; exact d1, rfl⟩
    simp only
    cases grow with
    | false => exact fin d
    | true =>
      simp only [if_true, M.bind]
      have o : Owned h0 h.mem ((some e.memory).toList ++ (e.content.toList ++ (e.arena :: (e.tags.toList ++ (e.self :: extra))))) := by
        refine d.own.perm ?_
        simp only [blocks, List.append_assoc, List.cons_append, List.nil_append, Option.toList_some]
        exact List.perm_middle
      rcases resizeP hA o with ⟨h1, e1, m1, f1⟩ | ⟨t, h1, e1, o1, k1⟩
      · left
        simp only [M.bind, e1, Option.bind_some, M.pure]
        exact ⟨.memory, e, h1, rfl, by rw [m1]; exact d, .inr ⟨f1, rfl⟩⟩
      · simp only [M.bind, e1, Option.bind_some]
        refine fin (e := { e with memory := t }) ⟨o1.perm ?_, text_mono d.text fun x hx => k1 x (List.mem_append_left _ hx)⟩
        simp only [blocks, List.append_assoc, List.cons_append, List.nil_append]
        exact List.perm_middle.symm

theorem hist_held {A : Alloc} (hA : Fresh A) {cfg : Option Config.Config} {h0 : Mem} {h : Heap} {e : HEv} {v : Event}
    (hh : Hist A cfg h0 h e v) : Held h0 h.mem e v.content [] := by
  induction hh with
  | create hc =>
    rename_i h h' e now
    rcases create_ok hA (Owned.nil h.mem) with ⟨g, e1, -, -⟩ | ⟨e', g, e1, d, -, -⟩
    · rw [hc] at e1; cases e1
    · rw [hc] at e1; cases e1; exact d
  | set _ hp hs ih =>
    rcases setContent_ok hA ih hp with ⟨g, e1, -, d⟩ | ⟨a, g, e1, d⟩
    · rw [hs] at e1; cases e1; exact d
    · rw [hs] at e1; cases e1; exact d
  | add _ hs ih =>
    rename_i vs grow r _
    rcases addTag_ok hA cfg grow vs ih with ⟨x, e', g, e1, d, -⟩ | ⟨w, e', g, e1, d, -⟩
    · rw [hs] at e1; cases e1; exact d
    · rw [hs] at e1; cases e1; exact d
  | caller _ h1 h2 ih =>
    rename_i h0 h0' h h' e v _
    have hb : ∀ a ∈ blocks e ++ [], h0' a = none ∧ h'.mem a = h.mem a := fun a ha => h1 a (ih.own.fresh a ha) (ih.own.live a ha)
    refine ⟨⟨ih.own.nodup, fun a ha => (hb a ha).1, fun a ha => by rw [(hb a ha).2]; exact ih.own.live a ha, fun a ha => ?_⟩, ?_⟩
    · refine h2 a fun hx => hx.2 ?_
      rw [ih.own.same a ha]; exact hx.1
    · exact text_mono ih.text fun x hx => (hb x (by simp [blocks, hx])).2

/-! ## C136 -/

/-- **C136 (part).** At every point of every history, whatever the allocator refuses: destroying the event succeeds and leaves
exactly the memory that is not the event's; until then the event holds its content. -/
theorem C136_destroy_partial {A : Alloc} (hA : Fresh A) {cfg : Option Config.Config} {h0 : Mem} {h : Heap} {e : HEv} {v : Event}
    (hh : Hist A cfg h0 h e v) :
    (∃ h', destroy e h = some ((), h') ∧ h'.mem = h0) ∧ e.content.bind h.mem = v.content.map .str := by
  have d := hist_held hA hh
  obtain ⟨h', e1, o1⟩ := destroy_ok d
  exact ⟨⟨h', e1, o1.eq⟩, d.text⟩

/-- C136: creating an event gives one, or leaves memory as it was and reports the lack of memory. -/
theorem C136_create {A : Alloc} (hA : Fresh A) (h : Heap) :
    (∃ h', create A h = some (none, h') ∧ h'.mem = h.mem ∧ Refused A h.mem) ∨
    ∃ e h', create A h = some (some e, h') ∧ ∀ cfg now, Hist A cfg h.mem h' e { zero with createdAt := now } := by
  rcases create_ok hA (Owned.nil h.mem) with ⟨g, e1, o, f⟩ | ⟨e, g, e1, -, -, -⟩
  · exact .inl ⟨g, e1, o.eq, f⟩
  · exact .inr ⟨e, g, e1, fun _ _ => .create e1⟩

/-- C136 (part): setting the content to a text that is not the event's own never misbehaves; it fails only for lack of
memory. -/
theorem C136_set_partial {A : Alloc} (hA : Fresh A) {cfg : Option Config.Config} {h0 : Mem} {h : Heap} {e : HEv} {v : Event}
    (hh : Hist A cfg h0 h e v) {p : Nat} {s : Bytes} (hp : h0 p = some (.str s)) :
    ∃ r e' h', setContent A e p h = some ((r, e'), h') ∧ (r = none ∨ (r = some .memory ∧ Refused A h0)) ∧
      Hist A cfg h0 h' e' { v with content := if r = none then some s else none } := by
  rcases setContent_ok hA (hist_held hA hh) hp with ⟨g, e1, f, -⟩ | ⟨a, g, e1, -⟩
  · exact ⟨_, _, g, e1, .inr ⟨rfl, f⟩, .set hh hp e1⟩
  · exact ⟨_, _, g, e1, .inl rfl, .set hh hp e1⟩

/-- C136 (part): adding a tag never misbehaves; it appends the tag or leaves the values as they are. -/
theorem C136_add_partial {A : Alloc} (hA : Fresh A) {cfg : Option Config.Config} {h0 : Mem} {h : Heap} {e : HEv} {v : Event}
    (hh : Hist A cfg h0 h e v) (grow : Bool) (vs : List Bytes) :
    ∃ r v' e' h', addTag A cfg grow v vs e h = some ((r, v', e'), h') ∧ Hist A cfg h0 h' e' v' ∧
      (r = none ∧ v' = { v with tags := v.tags ++ [vs] } ∨
        v' = v ∧ (r = some .invalidParam ∨ (r = some .memory ∧ Refused A h0))) := by
  rcases addTag_ok hA cfg grow vs (hist_held hA hh) with ⟨x, e', g, e1, -, hx⟩ | ⟨w, e', g, e1, -, hw⟩
  · refine ⟨_, _, _, g, e1, .add hh e1, .inr ⟨rfl, ?_⟩⟩
    rcases hx with hx | hx
    · left
      unfold Event.addTag at hx
      split at hx
      · cases hx; rfl
      · split at hx
        · cases hx; rfl
        · cases hx
    · exact .inr ⟨by rw [hx.2], hx.1⟩
  · refine ⟨_, _, _, g, e1, .add hh e1, .inl ⟨rfl, ?_⟩⟩
    unfold Event.addTag at hw
    split at hw
    · cases hw
    · split at hw
      · cases hw
      · cases hw; rfl

/-- Two texts of the caller. -/
def texts : Mem := fun a => if a = 1 then some (.str c!"first") else if a = 2 then some (.str c!"second") else none

/-- An allocator that refuses the fifth request. -/
theorem failAt_fresh (k : Nat) : Fresh (Filter.Props.failAt k) := by
  intro m n a h
  unfold Filter.Props.failAt at h
  split at h
  · simp at h
  · rename_i hn
    simp only [Option.some.injEq] at h
    subst h
    simp only [not_or, ne_eq, Decidable.not_not] at hn
    exact hn.2

/-- Memory after creating an event. -/
def made : Heap := ⟨upd (upd (upd texts 100 (some blob)) 101 (some blob)) 102 (some blob), 3⟩

/-- Memory after setting the content. -/
def first : Heap := ⟨upd made.mem 103 (some (.str c!"first")), 4⟩

/-- C136 fails: when there is no memory for a new content, the old one is lost, and the call reports an error. -/
theorem C136_kept_refuted (cfg : Option Config.Config) :
    ∃ (A : Alloc) (h0 : Mem) (h h' : Heap) (e e' : HEv) (v : Event) (p : Nat), Fresh A ∧ Hist A cfg h0 h e v ∧
      v.content = some c!"first" ∧ h0 p = some (.str c!"second") ∧
      setContent A e p h = some ((some .memory, e'), h') ∧ e'.content = none := by
  have h1 : create (Filter.Props.failAt 4) ⟨texts, 0⟩ = some (some ⟨100, none, 101, 102, none⟩, made) := rfl
  have h2 : setContent (Filter.Props.failAt 4) ⟨100, none, 101, 102, none⟩ 1 made =
      some ((none, ⟨100, some 103, 101, 102, none⟩), first) := rfl
  have h3 : setContent (Filter.Props.failAt 4) ⟨100, some 103, 101, 102, none⟩ 2 first =
      some ((some .memory, ⟨100, none, 101, 102, none⟩), ⟨upd first.mem 103 none, 5⟩) := rfl
  exact ⟨_, _, _, _, _, _, _, 2, failAt_fresh 4, .set (.create (now := 0) h1) (p := 1) (s := c!"first") rfl h2, rfl, rfl, h3, rfl⟩

/-- C136 fails: setting the content of an event to its own content reads memory that has just been released, whatever
the allocator does. -/
theorem C136_own_refuted {A : Alloc} (hA : Fresh A) {cfg : Option Config.Config} {h0 : Mem} {h : Heap} {e : HEv} {v : Event}
    (hh : Hist A cfg h0 h e v) {p : Nat} (hp : e.content = some p) : setContent A e p h = none := by
  have d := hist_held hA hh
  have hl : (h.mem p).isSome := Option.isSome_iff_ne_none.2 (d.own.live p (by simp [blocks, hp]))
  unfold setContent
  simp [M.bind, hp, free, hl, loadStr, upd]

/-! ## C137 -/

/-- What the caller of a step finds: an error and memory as it was without event and tree; or the values and the blocks. -/
def Step (A : Alloc) (h0 : Mem) (root : Nat) (Q : HEv → Prop) (v : Res Event) (m : M (Option Err × Event × HEv)) (h : Heap) : Prop :=
  ∃ r h', m h = some (r, h') ∧
    ((∃ x, r.1 = some x ∧ (v = .err x ∨ (Refused A h0 ∧ x = .memory)) ∧ h'.mem = h0) ∨
      (r.1 = none ∧ v = .ok r.2.1 ∧ Held h0 h'.mem r.2.2 r.2.1.content [root] ∧ Q r.2.2))

theorem Step.andThen {A : Alloc} {h0 : Mem} {root : Nat} {Q R : HEv → Prop} {v : Res Event} {g : Event → Res Event}
    {m : M (Option Err × Event × HEv)} {f : Event → HEv → M (Option Err × Event × HEv)} {h : Heap}
    (hm : Step A h0 root Q v m h)
    (hf : ∀ w e h', v = .ok w → Held h0 h'.mem e w.content [root] → Q e → Step A h0 root R (g w) (f w e) h') :
    Step A h0 root R (v >>= g) (andThen m f) h := by
  obtain ⟨r, h', e1, hx⟩ := hm
  unfold Ev.andThen
  rcases hx with ⟨x, hr, hv, hmem⟩ | ⟨hr, hv, hd, hq⟩
  · refine ⟨(some x, r.2), h', by simp only [M.bind, e1, Option.bind_some, hr, M.pure], .inl ⟨x, rfl, ?_, hmem⟩⟩
    rcases hv with hv | hv
    · left; rw [hv]; rfl
    · exact .inr hv
  · obtain ⟨r', h'', e2, h2⟩ := hf _ _ h' hv hd hq
    refine ⟨r', h'', by simp only [M.bind, e1, Option.bind_some, hr, e2], ?_⟩
    rw [hv]
    simpa using h2

theorem fail_ok {h0 : Mem} {h : Heap} {e : HEv} {c root} (d : Held h0 h.mem e c [root]) (x : Err) :
    ∃ h', fail root e x h = some ((some x, zero, e), h') ∧ h'.mem = h0 := by
  unfold fail
  obtain ⟨h1, e1, o1⟩ := destroy_ok d
  obtain ⟨h2, e2, o2, -⟩ := freeP (p := some root) (b := []) o1
  simp only [M.bind, e1, e2, Option.bind_some, M.pure]
  exact ⟨h2, rfl, o2.eq⟩

theorem Step.fail {A : Alloc} {h0 : Mem} {h : Heap} {e : HEv} {c root Q v} (d : Held h0 h.mem e c [root]) (x : Err)
    (hv : v = .err x ∨ (Refused A h0 ∧ x = .memory)) : Step A h0 root Q v (Ev.fail root e x) h := by
  obtain ⟨h', e1, m1⟩ := fail_ok d x
  exact ⟨_, h', e1, .inl ⟨x, rfl, hv, m1⟩⟩

theorem Step.pure {A : Alloc} {h0 : Mem} {h : Heap} {e : HEv} {root} {Q : HEv → Prop} {v : Event}
    (d : Held h0 h.mem e v.content [root]) (q : Q e) : Step A h0 root Q (.ok v) (M.pure (none, v, e)) h :=
  ⟨_, h, rfl, .inr ⟨rfl, rfl, d, q⟩⟩

theorem hexStep_ok {A : Alloc} {h0 : Mem} {h : Heap} {e : HEv} {root} {Q : HEv → Prop} {c : Option Bytes} (P : Plat) (tree : Json)
    (key : Bytes) (n : Nat) (old : Bytes) (put : Bytes → Event) (hput : ∀ b, (put b).content = c)
    (d : Held h0 h.mem e c [root]) (q : Q e) :
    Step A h0 root Q (hexField P tree key n old >>= fun b => .ok (put b)) (hexStep P tree key n old root put e) h := by
  unfold hexStep
  cases hf : hexField P tree key n old with
  | ub =>
    unfold hexField at hf
    split at hf
    · cases hf
    · split at hf <;> cases hf
  | err x => exact Step.fail d x (.inl rfl)
  | ok b =>
    simp only [Res.bind_ok]
    exact Step.pure (by rw [hput]; exact d) q

/-- The content field on values. -/
def withContent (v : Event) : Option Bytes → Event
  | none => v
  | some s => { v with content := some s }

theorem contentField_ok {A : Alloc} (hA : Fresh A) {h0 : Mem} {h : Heap} {e : HEv} {root} {v : Event} (cfg : Option Config.Config)
    (tree : Json) (d : Held h0 h.mem e v.content [root]) (hc : v.content = none) (ht : e.tags = none) :
    Step A h0 root (fun e => e.tags = none) (Event.contentField cfg tree >>= fun c => .ok (withContent v c))
      (contentField A cfg tree root v e) h := by
  unfold contentField Event.contentField
  cases hs : (get tree (c!"content")).bind asStr with
  | none => exact Step.pure d ht
  | some s =>
    simp only
    by_cases hb : cfg.any (fun c => decide (s.length > c.maxContent)) = true
    · rw [if_pos hb, if_pos hb]
      exact Step.fail d _ (.inl rfl)
    · rw [if_neg hb, if_neg hb]
      have he : e.content = none := by
        have := d.text
        rw [hc] at this
        cases hx : e.content with
        | none => rfl
        | some a =>
          rw [hx] at this
          exact absurd this (d.own.live a (by simp [blocks, hx]))
      rcases allocP hA d.own (.str s) with ⟨h1, e1, m1, f1⟩ | ⟨a, h1, e1, a1, o1, k1⟩
      · obtain ⟨h', e2, m2⟩ := fail_ok (h := h1) (root := root) (by rw [m1]; exact d) .memory
        exact ⟨_, h', by simp only [M.bind, e1, Option.bind_some]; exact e2, .inl ⟨_, rfl, .inr ⟨f1, rfl⟩, m2⟩⟩
      · refine ⟨_, h1, by simp only [M.bind, e1, Option.bind_some, M.pure]; rfl, .inr ⟨rfl, rfl, ⟨?_, ?_⟩, ht⟩⟩
        · simpa [blocks, he] using o1
        · simpa using a1

theorem addTags_ok {A : Alloc} (hA : Fresh A) {h0 : Mem} {root} (cfg : Option Config.Config) (grow : Event → List Bytes → Bool) :
    ∀ (l : List Json) (v : Event) (e : HEv) (h : Heap), Held h0 h.mem e v.content [root] →
      Step A h0 root (fun _ => True) (Event.addTags cfg v l) (addTags A cfg grow root v e l) h
  | [], v, e, h, d => Step.pure d trivial
  | j :: js, v, e, h, d => by
      unfold addTags Event.addTags
      cases ha : asArr j with
      | none => exact addTags_ok hA cfg grow js v e h d
      | some xs =>
        cases xs with
        | nil => exact addTags_ok hA cfg grow js v e h d
        | cons x xs =>
          simp only
          rcases allocP hA d.own blob with ⟨h1, e1, m1, f1⟩ | ⟨t, h1, e1, -, o1, k1⟩
          · obtain ⟨h', e2, m2⟩ := fail_ok (h := h1) (root := root) (by rw [m1]; exact d) .memory
            exact ⟨_, h', by simp only [M.bind, e1, Option.bind_some]; exact e2, .inl ⟨_, rfl, .inr ⟨f1, rfl⟩, m2⟩⟩
          · have d1 : Held h0 h1.mem e v.content [t, root] :=
              ⟨o1.perm (by
                have : blocks e ++ [t, root] = blocks e ++ t :: [root] := rfl
                rw [this]; exact List.perm_middle.symm),
                text_mono d.text fun x hx => k1 x (by simp [blocks, hx])⟩
            have drop : ∀ {e' : HEv} {c} {g : Heap}, Held h0 g.mem e' c [t, root] →
                ∃ g', free (some t) g = some ((), g') ∧ Held h0 g'.mem e' c [root] := by
              intro e' c g dg
              obtain ⟨g', eg, og, kg⟩ := freeP (p := some t) (b := blocks e' ++ [root]) (h := g) (h0 := h0)
                (dg.own.perm (List.perm_middle (l₁ := blocks e') (l₂ := [root])))
              exact ⟨g', eg, og, text_mono dg.text fun x hx => kg x (by simp [blocks, hx])⟩
            rcases addTag_ok hA cfg (grow v (tagValues (x :: xs))) (tagValues (x :: xs)) d1 with
              ⟨y, e', h2, e2, d2, hy⟩ | ⟨w, e', h2, e2, d2, hw⟩
            · obtain ⟨h3, e3, d3⟩ := drop d2
              obtain ⟨h4, e4, m4⟩ := fail_ok d3 .memory
              refine ⟨_, h4, by simp only [M.bind, e1, e2, e3, Option.bind_some]; exact e4, .inl ⟨_, rfl, ?_, m4⟩⟩
              rcases hy with hy | hy
              · left; rw [hy]
              · exact .inr ⟨hy.1, rfl⟩
            · obtain ⟨h3, e3, d3⟩ := drop d2
              obtain ⟨r, h4, e4, x4⟩ := addTags_ok hA cfg grow js w e' h3 d3
              refine ⟨r, h4, by simp only [M.bind, e1, e2, e3, Option.bind_some]; exact e4, ?_⟩
              rw [hw]; exact x4

theorem tagsField_ok {A : Alloc} (hA : Fresh A) {h0 : Mem} {h : Heap} {e : HEv} {root} {v : Event} (cfg : Option Config.Config)
    (grow : Event → List Bytes → Bool) (tree : Json) (d : Held h0 h.mem e v.content [root]) (ht : e.tags = none) :
    Step A h0 root (fun _ => True) (Event.tagsField cfg tree v) (tagsField A cfg grow tree root v e) h := by
  unfold tagsField Event.tagsField
  cases hs : (get tree (c!"tags")).bind asArr with
  | none => exact Step.pure d trivial
  | some l =>
    simp only
    by_cases hb : cfg.any (fun c => decide (l.length > c.maxTags)) = true
    · rw [if_pos hb, if_pos hb]
      exact Step.fail d _ (.inl rfl)
    · rw [if_neg hb, if_neg hb]
      by_cases hl : l = []
      · rw [if_pos hl, hl]; exact Step.pure d trivial
      · rw [if_neg hl]
        rcases allocP hA d.own blob with ⟨h1, e1, m1, f1⟩ | ⟨t, h1, e1, -, o1, k1⟩
        · obtain ⟨h', e2, m2⟩ := fail_ok (h := h1) (root := root) (by rw [m1]; exact d) .memory
          exact ⟨_, h', by simp only [M.bind, e1, Option.bind_some]; exact e2, .inl ⟨_, rfl, .inr ⟨f1, rfl⟩, m2⟩⟩
        · have d1 : Held h0 h1.mem { e with tags := some t } v.content [root] := by
            refine ⟨o1.perm ?_, text_mono d.text fun x hx => k1 x (by simp [blocks, hx])⟩
            simp only [blocks, ht, Option.toList_none, Option.toList_some, List.append_assoc, List.cons_append, List.nil_append]
            exact (List.perm_middle (l₁ := e.content.toList)).symm.trans
              (List.Perm.append_left _ ((List.Perm.swap _ _ _).trans ((List.Perm.swap _ _ _).cons _)))
          obtain ⟨r, h2, e2, x2⟩ := addTags_ok hA cfg grow l v _ h1 d1
          exact ⟨r, h2, by simp only [M.bind, e1, Option.bind_some]; exact e2, x2⟩

theorem fields_ok {A : Alloc} (hA : Fresh A) {h0 : Mem} {h : Heap} {e : HEv} {root} (P : Plat) (cfg : Option Config.Config)
    (grow : Event → List Bytes → Bool) (tree : Json) (d : Held h0 h.mem e none [root]) (ht : e.tags = none) :
    Step A h0 root (fun _ => True) (fromTree P cfg tree) (fields A P cfg grow tree root e) h := by
  have key : Step A h0 root (fun _ => True)
      ((hexField P tree (c!"id") 32 zero.id >>= fun b => Res.ok { zero with id := b }) >>= fun v =>
       (hexField P tree (c!"pubkey") 32 zero.pubkey >>= fun b =>
          Res.ok { v with pubkey := b, createdAt := (numFields P tree).1, kind := (numFields P tree).2 }) >>= fun v =>
       (Event.contentField cfg tree >>= fun c => .ok (withContent v c)) >>= fun v =>
       Event.tagsField cfg tree v >>= fun v =>
       hexField P tree (c!"sig") 64 zero.sig >>= fun b => Res.ok { v with sig := b })
      (fields A P cfg grow tree root e) h := by
    unfold fields
    refine (hexStep_ok (c := none) (Q := fun e => e.tags = none) P tree _ 32 _ (fun b => { zero with id := b }) (fun _ => rfl) d ht).andThen fun v1 e1 h1 hv1 d1 q1 => ?_
    have c1 : v1.content = none := by
      cases hx : hexField P tree (c!"id") 32 zero.id with
      | ub => rw [hx] at hv1; cases hv1
      | err _ => rw [hx] at hv1; cases hv1
      | ok b => rw [hx] at hv1; cases hv1; rfl
    refine (hexStep_ok (c := v1.content) (Q := fun e => e.tags = none) P tree _ 32 _ (fun b =>
      { v1 with pubkey := b, createdAt := (numFields P tree).1, kind := (numFields P tree).2 }) (fun _ => rfl) d1 q1).andThen fun v2 e2 h2 hv2 d2 q2 => ?_
    have c2 : v2.content = none := by
      cases hx : hexField P tree (c!"pubkey") 32 zero.pubkey with
      | ub => rw [hx] at hv2; cases hv2
      | err _ => rw [hx] at hv2; cases hv2
      | ok b => rw [hx] at hv2; cases hv2; exact c1
    refine (contentField_ok hA cfg tree d2 c2 q2).andThen fun v3 e3 h3 _ d3 q3 => ?_
    refine (tagsField_ok hA cfg grow tree d3 q3).andThen fun v4 e4 h4 _ d4 _ => ?_
    exact hexStep_ok (c := v4.content) P tree _ 64 _ (fun b => { v4 with sig := b }) (fun _ => rfl) d4 trivial
  have heq : ((hexField P tree (c!"id") 32 zero.id >>= fun b => Res.ok { zero with id := b }) >>= fun v =>
       (hexField P tree (c!"pubkey") 32 zero.pubkey >>= fun b =>
          Res.ok { v with pubkey := b, createdAt := (numFields P tree).1, kind := (numFields P tree).2 }) >>= fun v =>
       (Event.contentField cfg tree >>= fun c => .ok (withContent v c)) >>= fun v =>
       Event.tagsField cfg tree v >>= fun v =>
       hexField P tree (c!"sig") 64 zero.sig >>= fun b => Res.ok { v with sig := b }) = fromTree P cfg tree := by
    unfold fromTree
    cases hexField P tree (c!"id") 32 zero.id with
    | ub => rfl
    | err _ => rfl
    | ok b =>
      simp only [Res.bind_ok]
      cases hexField P tree (c!"pubkey") 32 zero.pubkey with
      | ub => rfl
      | err _ => rfl
      | ok b2 =>
        simp only [Res.bind_ok]
        cases Event.contentField cfg tree with
        | ub => rfl
        | err _ => rfl
        | ok c => cases c <;> rfl
  rw [← heq]; exact key

/-- Like `C137_memory`, with the blocks of the event. -/
theorem C137_held {A : Alloc} (hA : Fresh A) (P : Plat) (td : Int → Int) (fr : Int → Bytes) (cfg : Option Config.Config)
    (grow : Event → List Bytes → Bool) (s : Bytes) (h : Heap) :
    ∃ r h', fromJson A P cfg grow s h = some (r, h') ∧
      ((∃ x, r.1 = some x ∧ h'.mem = h.mem ∧ (Event.fromJson P (.cjson td fr) cfg s = .err x ∨ Refused A h.mem)) ∨
        ∃ e, r.1 = none ∧ r.2.2 = some e ∧ Event.fromJson P (.cjson td fr) cfg s = .ok r.2.1 ∧
          Held h.mem h'.mem e r.2.1.content []) := by
  unfold fromJson Event.fromJson
  cases parse s with
  | none => exact ⟨_, h, rfl, .inl ⟨_, rfl, rfl, .inl rfl⟩⟩
  | some tree =>
    simp only [M.bind]
    rcases allocP hA (Owned.nil h.mem) blob with ⟨h1, e1, m1, f1⟩ | ⟨root, h1, e1, -, o1, -⟩
    · exact ⟨(some .jsonParse, zero, none), h1, by simp only [M.bind, e1, Option.bind_some, M.pure], .inl ⟨_, rfl, m1, .inr f1⟩⟩
    · simp only [M.bind, e1, Option.bind_some]
      rcases create_ok hA o1 with ⟨h2, e2, o2, f2⟩ | ⟨e, h2, e2, d2, c2, t2⟩
      · obtain ⟨h3, e3, o3, -⟩ := freeP (p := some root) (b := []) o2
        exact ⟨(some .memory, zero, none), h3, by simp only [M.bind, e2, e3, Option.bind_some, M.pure], .inl ⟨_, rfl, o3.eq, .inr f2⟩⟩
      · simp only [M.bind, e2, Option.bind_some]
        obtain ⟨r, h3, e3, x3⟩ := fields_ok hA P cfg grow tree d2 t2
        simp only [M.bind, e3, Option.bind_some]
        rcases x3 with ⟨x, hr, hv, m3⟩ | ⟨hr, hv, d3, -⟩
        · refine ⟨(some x, zero, none), h3, by simp only [hr, M.pure], .inl ⟨x, rfl, m3, ?_⟩⟩
          rcases hv with hv | hv
          · exact .inl hv
          · exact .inr hv.1
        · obtain ⟨h4, e4, o4, k4⟩ := freeP (p := some root) (b := blocks r.2.2) (h := h3) (h0 := h.mem)
            (d3.own.perm (by simpa using (List.perm_middle (l₁ := blocks r.2.2) (l₂ := []))))
          have t4 := text_mono d3.text fun x hx => k4 x (by simp [blocks, hx])
          exact ⟨(none, r.2.1, some r.2.2), h4, by simp only [M.bind, hr, e4, Option.bind_some, M.pure],
            .inr ⟨_, rfl, rfl, hv, by simpa using o4, t4⟩⟩

/-- **C137.** Reading an event from JSON, whatever the text, the configuration and the allocator: it never touches memory it does
not own. It reports the error of the text, or a lack of memory, and memory is as it was before; or it gives the event
that the text describes, and destroying that brings memory back as it was. -/
theorem C137_memory {A : Alloc} (hA : Fresh A) (P : Plat) (td : Int → Int) (fr : Int → Bytes) (cfg : Option Config.Config)
    (grow : Event → List Bytes → Bool) (s : Bytes) (h : Heap) :
    ∃ r h', fromJson A P cfg grow s h = some (r, h') ∧
      ((∃ x, r.1 = some x ∧ r.2.2 = none ∧ h'.mem = h.mem ∧
          (Event.fromJson P (.cjson td fr) cfg s = .err x ∨ (Refused A h.mem ∧ (x = .memory ∨ x = .jsonParse)))) ∨
        ∃ e h'', r.1 = none ∧ r.2.2 = some e ∧ Event.fromJson P (.cjson td fr) cfg s = .ok r.2.1 ∧
          e.content.bind h'.mem = r.2.1.content.map .str ∧ destroy e h' = some ((), h'') ∧ h''.mem = h.mem) := by
  unfold fromJson Event.fromJson
  cases parse s with
  | none => exact ⟨_, h, rfl, .inl ⟨_, rfl, rfl, rfl, .inl rfl⟩⟩
  | some tree =>
    simp only [M.bind]
    rcases allocP hA (Owned.nil h.mem) blob with ⟨h1, e1, m1, f1⟩ | ⟨root, h1, e1, -, o1, -⟩
    · exact ⟨(some .jsonParse, zero, none), h1, by simp only [M.bind, e1, Option.bind_some, M.pure], .inl ⟨_, rfl, rfl, m1, .inr ⟨f1, .inr rfl⟩⟩⟩
    · simp only [M.bind, e1, Option.bind_some]
      rcases create_ok hA o1 with ⟨h2, e2, o2, f2⟩ | ⟨e, h2, e2, d2, c2, t2⟩
      · obtain ⟨h3, e3, o3, -⟩ := freeP (p := some root) (b := []) o2
        exact ⟨(some .memory, zero, none), h3, by simp only [M.bind, e2, e3, Option.bind_some, M.pure], .inl ⟨_, rfl, rfl, o3.eq, .inr ⟨f2, .inl rfl⟩⟩⟩
      · simp only [M.bind, e2, Option.bind_some]
        obtain ⟨r, h3, e3, x3⟩ := fields_ok hA P cfg grow tree d2 t2
        simp only [M.bind, e3, Option.bind_some]
        rcases x3 with ⟨x, hr, hv, m3⟩ | ⟨hr, hv, d3, -⟩
        · refine ⟨(some x, zero, none), h3, by simp only [hr, M.pure], .inl ⟨x, rfl, rfl, m3, ?_⟩⟩
          rcases hv with hv | hv
          · exact .inl hv
          · exact .inr ⟨hv.1, .inl hv.2⟩
        · obtain ⟨h4, e4, o4, k4⟩ := freeP (p := some root) (b := blocks r.2.2) (h := h3) (h0 := h.mem)
            (d3.own.perm (by simpa using (List.perm_middle (l₁ := blocks r.2.2) (l₂ := [])))) 
          have t4 := text_mono d3.text fun x hx => k4 x (by simp [blocks, hx])
          obtain ⟨h5, e5, o5⟩ := destroy_ok (extra := []) ⟨by simpa using o4, t4⟩
          exact ⟨(none, r.2.1, some r.2.2), h4, by simp only [M.bind, hr, e4, Option.bind_some, M.pure], .inr ⟨_, h5, rfl, rfl, hv, t4, e5, o5.eq⟩⟩

/-- A text with content and two tags, one of them skipped: nine blocks with the tree; one too few. -/
example : let P : Plat := ⟨fun _ => 0, false⟩
    let s := c!"{\"content\":\"x\",\"tags\":[[\"a\",\"b\"],5]}"
    ((fromJson (Filter.Props.failAt 99) P none (fun _ _ => true) s ⟨fun _ => none, 0⟩).map
      fun r => (r.1.1, r.1.2.1.tags, r.1.2.2.isSome, r.2.tick)) = some (none, [[c!"a", c!"b"]], true, 9) ∧
    ((fromJson (Filter.Props.failAt 8) P none (fun _ _ => true) s ⟨fun _ => none, 0⟩).map
      fun r => (r.1.1, r.1.2.2.isSome, r.2.tick)) = some (some .memory, false, 9) := by
  decide +kernel

end Nostr.Own.Ev.Props
