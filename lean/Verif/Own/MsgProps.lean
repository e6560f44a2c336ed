import Verif.Own.EvProps
import Verif.Own.Msg
import Verif.Msg.Lemmas

/-! # Property theorems: memory of client messages (C140) -/

namespace Nostr.Own.Msg.Props
open Nostr Nostr.Heap Nostr.Own Nostr.Own.Msg Nostr.Event Nostr.Json Nostr.Filter Nostr.Filter.Own Nostr.Msg

/-! ## Specification -/

/-- The filters `fs` stand for `vs` and consist of the blocks `own`. -/
inductive Items (m : Mem) : List HFilter → List Filter → List Nat → Prop
  | nil : Items m [] [] []
  | cons {f v o fs vs os} (h : Repr m f v o) (t : Items m fs vs os) : Items m (f :: fs) (v :: vs) (o ++ os)

/-- The message in memory stands for the message `v`, as far as texts and filters in memory are concerned. -/
def Stands (m : Mem) : HMsg → ClientMsg → Prop
  | .event (some e), .event v => e.content.bind m = v.content.map .str
  | .auth (some e), .auth v => e.content.bind m = v.content.map .str
  | .close, .close _ => True
  | .req f, .req _ vs => ∃ own, Items m f.items vs own
  | .count f, .count _ vs => ∃ own, Items m f.items vs own
  | _, _ => False

/-! ## Lemmas -/

theorem repr_mono {m m' : Mem} {f v own} (h : Repr m f v own) (hm : ∀ a ∈ own, m' a = m a) : Repr m' f v own := by
  cases h with
  | mk h1 h2 h3 h4 h5 h6 h7 h8 h9 h10 =>
    exact .mk (h1.mono fun a ha => hm a (by simp [ha])) (h2.mono fun a ha => hm a (by simp [ha]))
      (h3.mono fun a ha => hm a (by simp [ha])) (h4.mono fun a ha => hm a (by simp [ha]))
      (h5.mono fun a ha => hm a (by simp [ha])) (h6.mono fun a ha => hm a (by simp [ha]))
      (h7.mono fun a ha => hm a (by simp [ha])) h8 h9 h10

theorem Items.mono {m m' : Mem} {fs vs own} (h : Items m fs vs own) (hm : ∀ a ∈ own, m' a = m a) : Items m' fs vs own := by
  induction h with
  | nil => exact .nil
  | cons h t ih => exact .cons (repr_mono h fun a ha => hm a (by simp [ha])) (ih fun a ha => hm a (by simp [ha]))

theorem Items.snoc {m : Mem} {fs vs own f v o} (h : Items m fs vs own) (hf : Repr m f v o) :
    Items m (fs ++ [f]) (vs ++ [v]) (own ++ o) := by
  induction h with
  | nil => simpa using Items.cons hf .nil
  | cons h t ih => rw [List.append_assoc]; exact .cons h ih

/-- `nostr_filter_free`. -/
theorem freeRepr {h0 : Mem} {h : Heap} {f v o b} (hr : Repr h.mem f v o) (w : Owned h0 h.mem (o ++ b)) :
    ∃ h', freeFilter f h = some (Filter.Own.zero, h') ∧ Owned h0 h'.mem b ∧ ∀ a ∈ b, h'.mem a = h.mem a := by
  have hn := List.nodup_append.1 w.nodup
  refine ⟨_, freeFilter_ok hr hn.1, w.drop, fun a ha => ?_⟩
  exact without_other _ fun hb => hn.2.2 a hb a ha rfl

theorem load_ok {h0 : Mem} {h : Heap} {own : List Nat} (o : Owned h0 h.mem own) {a : Nat} (ha : a ∈ own) :
    ∃ x, load a h = some (x, h) := by
  unfold load
  cases hm : h.mem a with
  | none => exact absurd hm (o.live a ha)
  | some x => exact ⟨x, rfl⟩

theorem freeItems_ok {h0 : Mem} (a : Nat) : ∀ {fs vs own} {h : Heap} {b : List Nat}, Items h.mem fs vs own →
    Owned h0 h.mem (own ++ (a :: b)) →
    ∃ h', freeItems a fs h = some ((), h') ∧ Owned h0 h'.mem (a :: b) ∧ ∀ x ∈ a :: b, h'.mem x = h.mem x
  | _, _, _, h, b, .nil, o => ⟨h, rfl, o, fun _ _ => rfl⟩
  | _, _, _, h, b, .cons (o := o1) (os := os) hf t, o => by
      rw [List.append_assoc] at o
      obtain ⟨x, e0⟩ := load_ok (a := a) o (by simp)
      obtain ⟨h1, e1, w1, k1⟩ := freeRepr hf o
      obtain ⟨h2, e2, w2, k2⟩ := freeItems_ok a (t.mono fun x hx => k1 x (by simp [hx])) w1
      refine ⟨h2, ?_, w2, fun x hx => (k2 x hx).trans (k1 x (List.mem_append_right _ hx))⟩
      simp only [freeItems, M.bind, e0, e1, e2, Option.bind_some]

theorem drop_ok {h0 : Mem} {a : Nat} {fs vs own} {h : Heap} {b : List Nat} (i : Items h.mem fs vs own)
    (o : Owned h0 h.mem (own ++ (a :: b))) (x : Err) :
    ∃ h', drop a fs x h = some ((some x, ⟨none, []⟩), h') ∧ Owned h0 h'.mem b ∧ ∀ x ∈ b, h'.mem x = h.mem x := by
  obtain ⟨h1, e1, w1, k1⟩ := freeItems_ok a i o
  obtain ⟨h2, e2, w2, k2⟩ := freeP (p := some a) w1
  refine ⟨h2, ?_, w2, fun x hx => (k2 x hx).trans (k1 x (by simp [hx]))⟩
  simp only [drop, M.bind, e1, e2, Option.bind_some, M.pure]

theorem ofTree_rejected {real : Bytes → Int} {root : Json} (h : ∀ f, ofTree real root ≠ .ok f) :
    ofTree real root = .err (.relay .invalidJson) := by
  have s1 : ∀ j, (∃ v, parseStrings j = .ok v) ∨ parseStrings j = .err (.relay .invalidJson) := by
    intro j; unfold parseStrings; split
    · exact .inl ⟨_, rfl⟩
    · split
      · exact .inr rfl
      · exact .inl ⟨_, rfl⟩
  have s2 : ∀ j, (∃ v, parseInts real j = .ok v) ∨ parseInts real j = .err (.relay .invalidJson) := by
    intro j; unfold parseInts; split
    · exact .inl ⟨_, rfl⟩
    · split
      · exact .inr rfl
      · exact .inl ⟨_, rfl⟩
  have s3 : ∀ j, (∃ v, parseSearch j = .ok v) ∨ parseSearch j = .err (.relay .invalidJson) := by
    intro j; unfold parseSearch; split
    · exact .inl ⟨_, rfl⟩
    · split
      · exact .inr rfl
      · exact .inl ⟨_, rfl⟩
  have s4 : ∀ l, (∃ v, parseGeneric l = .ok v) ∨ parseGeneric l = .err (.relay .invalidJson) := by
    intro l
    induction l with
    | nil => exact .inl ⟨_, rfl⟩
    | cons p l ih =>
      obtain ⟨k, v⟩ := p
      rw [parseGeneric]
      split
      · exact ih
      · rcases s1 (some v) with ⟨w, e⟩ | e
        · rcases ih with ⟨u, e'⟩ | e'
          · exact .inl ⟨_, by rw [e, e']; rfl⟩
          · exact .inr (by rw [e, e']; rfl)
        · exact .inr (by rw [e]; rfl)
  unfold ofTree at h ⊢
  rcases (s1 (get root (c!"ids"))).symm with e1 | ⟨v1, e1⟩
  · rw [e1]; rfl
  rcases (s1 (get root (c!"authors"))).symm with e2 | ⟨v2, e2⟩
  · rw [e1, e2]; rfl
  rcases (s2 (get root (c!"kinds"))).symm with e3 | ⟨v3, e3⟩
  · rw [e1, e2, e3]; rfl
  rcases (s1 (get root (c!"#e"))).symm with e4 | ⟨v4, e4⟩
  · rw [e1, e2, e3, e4]; rfl
  rcases (s1 (get root (c!"#p"))).symm with e5 | ⟨v5, e5⟩
  · rw [e1, e2, e3, e4, e5]; rfl
  rcases (s4 (members root)).symm with e6 | ⟨v6, e6⟩
  · rw [e1, e2, e3, e4, e5, e6]; rfl
  rcases (s3 (get root (c!"search"))).symm with e7 | ⟨v7, e7⟩
  · rw [e1, e2, e3, e4, e5, e6, e7]; rfl
  rw [e1, e2, e3, e4, e5, e6, e7] at h
  exact absurd rfl (h _)

/-- A lack of memory, as it is reported. -/
def Lack (A : Alloc) (h0 : Mem) (x : Err) : Prop := Refused A h0 ∧ (x = .relay .memory ∨ x = .relay .invalidJson)

/-- `nostr_filter_parse`. -/
theorem filterParse_ok {A : Alloc} (hA : Fresh A) (real : Bytes → Int) (text : Bytes) {h0 : Mem} {h : Heap} {own : List Nat}
    (o : Owned h0 h.mem own) :
    ∃ r h', filterParse A real text h = some (r, h') ∧ (∀ a ∈ own, h'.mem a = h.mem a) ∧
      ((∃ x, r.1 = some x ∧ Owned h0 h'.mem own ∧ (parseFilter real text text.length = .err (.relay x) ∨ Lack A h0 (.relay x))) ∨
        ∃ v new, r.1 = none ∧ parseFilter real text text.length = .ok v ∧ Repr h'.mem r.2 v new ∧ Owned h0 h'.mem (new ++ own)) := by
  unfold filterParse parseFilter
  have ht : (if text.length > 0 then text.take text.length else text) = text := by split <;> simp
  rw [ht]
  cases parse text with
  | none => exact ⟨_, h, rfl, fun _ _ => rfl, .inl ⟨_, rfl, o, .inl rfl⟩⟩
  | some tree =>
    simp only [M.bind]
    rcases allocP hA o Ev.blob with ⟨g, e1, m1, f1⟩ | ⟨t, g, e1, -, o1, k1⟩
    · exact ⟨(some .invalidJson, Filter.Own.zero), g, by simp only [e1, Option.bind_some, M.pure], fun a _ => by rw [m1],
        .inl ⟨_, rfl, by rw [m1]; exact o, .inr ⟨f1, .inr rfl⟩⟩⟩
    · obtain ⟨st, d, g2, e2, hx⟩ := Filter.Props.C89_parse hA real tree g
      have bad : g2.mem = g.mem → ∀ x, st = some x → (ofTree real tree = .err (.relay x) ∨ Lack A h0 (.relay x)) →
          ∃ r h', ((alloc A Ev.blob h).bind fun r => (match r.1 with
            | none => M.pure (some RelayErr.invalidJson, Filter.Own.zero)
            | some t => M.bind (Filter.Own.parse A real tree) fun r => M.bind (free (some t)) fun _ => M.pure r) r.2) = some (r, h') ∧
            (∀ a ∈ own, h'.mem a = h.mem a) ∧
          ((∃ x, r.1 = some x ∧ Owned h0 h'.mem own ∧ (ofTree real tree = .err (.relay x) ∨ Lack A h0 (.relay x))) ∨
          ∃ v new, r.1 = none ∧ ofTree real tree = .ok v ∧ Repr h'.mem r.2 v new ∧ Owned h0 h'.mem (new ++ own)) := by
        intro m2 x hx hv
        obtain ⟨g3, e3, o3, k3⟩ := freeP (p := some t) (b := own) (h := g2) (h0 := h0) (by rw [m2]; exact o1)
        exact ⟨(st, d), g3, by simp only [M.bind, e1, e2, e3, Option.bind_some, M.pure],
          fun a ha => by rw [k3 a ha, m2, k1 a ha], .inl ⟨x, hx, o3, hv⟩⟩
      rcases hx with ⟨rfl, v, new, hv, hr, hn, hf, hs⟩ | ⟨rfl, hf, -, m2⟩ | ⟨rfl, hf, -, m2⟩
      · obtain ⟨w, k⟩ := o1.extend hn hf (repr_live hr) hs
        obtain ⟨g3, e3, o3, k3⟩ := freeP (p := some t) (b := new ++ own) (h := g2) (h0 := h0) (w.perm List.perm_middle)
        refine ⟨(none, d), g3, by simp only [M.bind, e1, e2, e3, Option.bind_some, M.pure], fun a ha => ?_,
          .inr ⟨v, new, rfl, hv, repr_mono hr fun a ha => k3 a (by simp [ha]), o3⟩⟩
        rw [k3 a (by simp [ha]), k a (by simp [ha]), k1 a ha]
      · exact bad m2 _ rfl (.inr ⟨hf.back o1.same, .inl rfl⟩)
      · exact bad m2 _ rfl (.inl (ofTree_rejected hf))

/-- What a step on the way to a message comes to: `v` are the values, `R` what the result stands for, and `own` the blocks
that were held before. -/
def Step {α β : Type} (A : Alloc) (h0 : Mem) (own : List Nat) (v : Res β) (R : Mem → α → β → List Nat → Prop) (m : M (Option Err × α))
    (h : Heap) : Prop :=
  ∃ r h', m h = some (r, h') ∧ (∀ a ∈ own, h'.mem a = h.mem a) ∧
    ((∃ x, r.1 = some x ∧ Owned h0 h'.mem own ∧ (v = .err x ∨ Lack A h0 x)) ∨
     ∃ w new, r.1 = none ∧ v = .ok w ∧ R h'.mem r.2 w new ∧ Owned h0 h'.mem (new ++ own))

/-- The array of filters. -/
def Filters (m : Mem) (f : HFilters) (vs : List Filter) (own : List Nat) : Prop :=
  (f.array = none ∧ f.items = [] ∧ vs = [] ∧ own = []) ∨
  ∃ a os, f.array = some a ∧ Items m f.items vs os ∧ own = os ++ [a]

theorem filterLoop_ok {A : Alloc} (hA : Fresh A) (P : Plat) (r : Bytes → Json) {h0 : Mem} {own : List Nat} (a : Nat) :
    ∀ (js : List Json) (done : List HFilter) (vs : List Filter) (os : List Nat) (h : Heap),
      Items h.mem done vs os → Owned h0 h.mem (os ++ (a :: own)) →
      Step A h0 own (Nostr.Msg.filterLoop P r js >>= fun ws => .ok (vs ++ ws)) Filters (filterLoop A P r a done js) h
  | [], done, vs, os, h, i, o =>
      ⟨_, h, rfl, fun _ _ => rfl, .inr ⟨vs, os ++ [a], rfl, by simp [Nostr.Msg.filterLoop], .inr ⟨a, os, rfl, i, rfl⟩,
        by simpa using o⟩⟩
  | j :: js, done, vs, os, h, i, o => by
      unfold filterLoop Nostr.Msg.filterLoop
      -- the ways to fail
      have bad : ∀ {g : Heap}, Items g.mem done vs os → Owned h0 g.mem (os ++ (a :: own)) → (∀ x ∈ own, g.mem x = h.mem x) →
          ∀ (x : Err) (v : Res (List Filter)), (v = .err x ∨ Lack A h0 x) →
          ∃ r' h', drop a done x g = some (r', h') ∧ (∀ y ∈ own, h'.mem y = h.mem y) ∧
            ((∃ x, r'.1 = some x ∧ Owned h0 h'.mem own ∧ (v = .err x ∨ Lack A h0 x)) ∨
             ∃ w new, r'.1 = none ∧ v = .ok w ∧ Filters h'.mem r'.2 w new ∧ Owned h0 h'.mem (new ++ own)) := by
        intro g ig og kg x v hv
        obtain ⟨g', e, w, k⟩ := drop_ok ig og x
        exact ⟨_, g', e, fun y hy => (k y hy).trans (kg y hy), .inl ⟨x, rfl, w, hv⟩⟩
      unfold Step
      simp only [M.bind]
      rcases allocP hA o (.str (reprint r j)) with ⟨g, e1, m1, f1⟩ | ⟨s, g, e1, -, o1, k1⟩
      · simp only [e1, Option.bind_some]
        exact bad (by rw [m1]; exact i) (by rw [m1]; exact o) (fun x _ => by rw [m1]) _ _ (.inr ⟨f1, .inl rfl⟩)
      · simp only [e1, Option.bind_some]
        obtain ⟨f, g2, e2, k2, hx⟩ := filterParse_ok hA P.real (reprint r j) o1
        simp only [M.bind, e2, Option.bind_some]
        rcases hx with ⟨x, hx, o2, hv⟩ | ⟨v, new, hx, hv, hr, o2⟩
        · obtain ⟨g3, e3, o3, k3⟩ := freeP (p := some s) (b := os ++ (a :: own)) o2
          have k : ∀ y ∈ os ++ (a :: own), g3.mem y = h.mem y := fun y hy => by
            rw [k3 y hy, k2 y (by simp only [List.mem_cons]; exact .inr hy), k1 y hy]
          simp only [e3, Option.bind_some, hx]
          refine bad (i.mono fun y hy => k y (by simp [hy])) o3 (fun y hy => k y (by simp [hy])) _ _ ?_
          rcases hv with hv | hv
          · left; rw [hv]; rfl
          · exact .inr hv
        · have o2' : Owned h0 g2.mem (s :: (new ++ (os ++ (a :: own)))) := o2.perm List.perm_middle
          obtain ⟨g3, e3, o3, k3⟩ := freeP (p := some s) (b := new ++ (os ++ (a :: own))) o2'
          have k : ∀ y ∈ os ++ (a :: own), g3.mem y = h.mem y := fun y hy => by
            rw [k3 y (List.mem_append_right _ hy), k2 y (by simp only [List.mem_cons]; exact .inr hy), k1 y hy]
          have hr3 := repr_mono hr fun y hy => k3 y (by simp [hy])
          have i3 := i.mono (m' := g3.mem) fun y hy => k y (by simp [hy])
          simp only [e3, Option.bind_some, hx, hv, Res.bind_ok]
          obtain ⟨lx, e4⟩ := load_ok (a := a) o3 (by simp)
          cases hval : (validate v).1 with
          | ub => exact absurd hval (validate_noub v)
          | err x =>
            obtain ⟨g4, e5, o5, k5⟩ := freeRepr hr3 o3
            simp only [M.bind, e4, e5, Option.bind_some]
            exact bad (i3.mono fun y hy => k5 y (by simp [hy])) o5
              (fun y hy => (k5 y (by simp [hy])).trans (k y (by simp [hy]))) _ _ (.inl rfl)
          | ok u =>
            simp only [M.bind, e4, Option.bind_some, Res.bind_ok]
            have ih := filterLoop_ok hA P r (h0 := h0) (own := own) a js (done ++ [f.2]) (vs ++ [v]) (os ++ new) g3 (i3.snoc hr3)
              (o3.perm (by
                rw [← List.append_assoc]
                exact List.perm_append_comm.append_right _))
            obtain ⟨r', h', e6, k6, hy⟩ := ih
            refine ⟨r', h', e6, fun y hy => (k6 y hy).trans (k y (by simp [hy])), ?_⟩
            have heq : (Nostr.Msg.filterLoop P r js >>= fun ws => Res.ok (vs ++ [v] ++ ws)) =
                ((Nostr.Msg.filterLoop P r js >>= fun fs => Res.ok (v :: fs)) >>= fun ws => Res.ok (vs ++ ws)) := by
              cases Nostr.Msg.filterLoop P r js <;> simp
            rw [heq] at hy
            exact hy

theorem parseFilters_ok {A : Alloc} (hA : Fresh A) (P : Plat) (r : Bytes → Json) {h0 : Mem} {own : List Nat} (js : List Json) {h : Heap}
    (o : Owned h0 h.mem own) :
    Step A h0 own (Nostr.Msg.parseFilters P r js) Filters (parseFilters A P r js) h := by
  unfold parseFilters Nostr.Msg.parseFilters
  by_cases h1 : js.length > 10
  · rw [if_pos h1, if_pos h1]
    exact ⟨_, h, rfl, fun _ _ => rfl, .inl ⟨_, rfl, o, .inl rfl⟩⟩
  · rw [if_neg h1, if_neg h1]
    by_cases h2 : js.length = 0
    · rw [if_pos h2, if_pos h2]
      exact ⟨_, h, rfl, fun _ _ => rfl, .inr ⟨[], [], rfl, rfl, .inl ⟨rfl, rfl, rfl, rfl⟩, o⟩⟩
    · rw [if_neg h2, if_neg h2]
      unfold Step
      simp only [M.bind]
      rcases allocP hA o Ev.blob with ⟨g, e1, m1, f1⟩ | ⟨a, g, e1, -, o1, k1⟩
      · exact ⟨(some (.relay .memory), ⟨none, []⟩), g, by simp only [e1, Option.bind_some, M.pure], fun a _ => by rw [m1],
          .inl ⟨_, rfl, by rw [m1]; exact o, .inr ⟨f1, .inl rfl⟩⟩⟩
      · obtain ⟨r', h', e2, k2, hx⟩ := filterLoop_ok hA P r (h0 := h0) (own := own) a js [] [] [] g .nil o1
        refine ⟨r', h', by simp only [e1, Option.bind_some, e2], fun y hy => (k2 y hy).trans (k1 y hy), ?_⟩
        have : (Nostr.Msg.filterLoop P r js >>= fun ws => Res.ok ([] ++ ws)) = Nostr.Msg.filterLoop P r js := by
          cases Nostr.Msg.filterLoop P r js <;> simp
        rw [this] at hx
        exact hx

/-- An event of a message. -/
def EventAt (m : Mem) (e : Option Ev.HEv) (v : Event) (own : List Nat) : Prop :=
  ∃ x, e = some x ∧ x.content.bind m = v.content.map .str ∧ own = Ev.Props.blocks x

theorem eventArg_ok {A : Alloc} (hA : Fresh A) (P : Plat) (td : Int → Int) (fr : Int → Bytes) (r : Bytes → Json)
    (cfg : Option Config.Config) (grow : Event → List Bytes → Bool) {h0 : Mem} {own : List Nat} (js : List Json) {h : Heap}
    (o : Owned h0 h.mem own) :
    Step A h0 own (Nostr.Msg.eventArg P (.cjson td fr) r cfg js) EventAt (eventArg A P r cfg grow js) h := by
  cases js with
  | nil => exact ⟨_, h, rfl, fun _ _ => rfl, .inl ⟨_, rfl, o, .inl rfl⟩⟩
  | cons j js =>
    unfold eventArg Nostr.Msg.eventArg Step
    simp only [M.bind]
    rcases allocP hA o (.str (reprint r j)) with ⟨g, e1, m1, f1⟩ | ⟨s, g, e1, -, o1, k1⟩
    · exact ⟨(some (.relay .memory), none), g, by simp only [e1, Option.bind_some, M.pure], fun a _ => by rw [m1],
        .inl ⟨_, rfl, by rw [m1]; exact o, .inr ⟨f1, .inl rfl⟩⟩⟩
    · obtain ⟨x, g2, e2, hx⟩ := Ev.Props.C137_held hA P td fr cfg grow (reprint r j) g
      simp only [e1, Option.bind_some, e2]
      rcases hx with ⟨y, hr, m2, hv⟩ | ⟨e, hr, he, hv, d⟩
      · obtain ⟨g3, e3, o3, k3⟩ := freeP (p := some s) (b := own) (h := g2) (h0 := h0) (by rw [m2]; exact o1)
        refine ⟨(some (.relay .invalidJson), none), g3, by simp only [M.bind, e2, e3, Option.bind_some, hr, M.pure],
          fun a ha => by rw [k3 a ha, m2, k1 a ha], .inl ⟨_, rfl, o3, ?_⟩⟩
        rcases hv with hv | hv
        · left; rw [hv]
        · exact .inr ⟨hv.back o1.same, .inr rfl⟩
      · have dn := d.own
        simp only [List.append_nil] at dn
        obtain ⟨w, k⟩ := o1.extend dn.nodup dn.fresh dn.live dn.same
        obtain ⟨g3, e3, o3, k3⟩ := freeP (p := some s) (b := Ev.Props.blocks e ++ own) (h := g2) (h0 := h0) (w.perm List.perm_middle)
        refine ⟨(none, some e), g3, by simp only [M.bind, e2, e3, Option.bind_some, hr, he, M.pure],
          fun a ha => by rw [k3 a (by simp [ha]), k a (by simp [ha]), k1 a ha], .inr ⟨x.2.1, Ev.Props.blocks e, rfl, by rw [hv], ?_, o3⟩⟩
        exact ⟨e, rfl, Ev.Props.text_mono d.text fun y hy => k3 y (by simp [Ev.Props.blocks, hy]), rfl⟩

theorem idArg_noub (l : List Json) : idArg l ≠ .ub := by
  unfold idArg
  repeat' split
  all_goals simp

/-- The blocks of a message. -/
def MsgAt (m : Mem) (x : HMsg) (v : ClientMsg) (own : List Nat) : Prop :=
  match x, v with
  | .event e, .event v => EventAt m e v own
  | .auth e, .auth v => EventAt m e v own
  | .close, .close _ => own = []
  | .req f, .req _ vs => Filters m f vs own
  | .count f, .count _ vs => Filters m f vs own
  | _, _ => False

/-- Like `Step`, for a whole message: a failure leaves the type unknown. -/
def Whole (A : Alloc) (h0 : Mem) (own : List Nat) (v : Res ClientMsg) (m : M (Option Err × HMsg)) (h : Heap) : Prop :=
  ∃ r h', m h = some (r, h') ∧
    ((∃ x, r = (some x, .unknown) ∧ Owned h0 h'.mem own ∧ (v = .err x ∨ Lack A h0 x)) ∨
     ∃ w new, r.1 = none ∧ v = .ok w ∧ MsgAt h'.mem r.2 w new ∧ Owned h0 h'.mem (new ++ own))

theorem finish_ok {α β : Type} {A : Alloc} {h0 : Mem} {own : List Nat} {v : Res β} {R : Mem → α → β → List Nat → Prop}
    {m : M (Option Err × α)} {h : Heap} (s : Step A h0 own v R m h) (f : α → HMsg) (g : β → ClientMsg)
    (hR : ∀ m a b o, R m a b o → MsgAt m (f a) (g b) o) :
    Whole A h0 own (v >>= fun b => .ok (g b)) (finish m f) h := by
  obtain ⟨r, h', e, -, hx⟩ := s
  unfold Whole finish
  simp only [M.bind, e, Option.bind_some]
  rcases hx with ⟨x, hr, o, hv⟩ | ⟨w, new, hr, hv, hw, o⟩
  · refine ⟨(some x, .unknown), h', by simp only [hr, M.pure], .inl ⟨x, rfl, o, ?_⟩⟩
    rcases hv with hv | hv
    · left; rw [hv]; rfl
    · exact .inr hv
  · exact ⟨(none, f r.2), h', by simp only [hr, M.pure], .inr ⟨g w, new, rfl, by rw [hv]; rfl, hR _ _ _ _ hw, o⟩⟩

theorem ofRoot_ok {A : Alloc} (hA : Fresh A) (P : Plat) (td : Int → Int) (fr : Int → Bytes) (r : Bytes → Json)
    (cfg : Option Config.Config) (grow : Event → List Bytes → Bool) {h0 : Mem} {own : List Nat} (root : Json) {h : Heap}
    (o : Owned h0 h.mem own) :
    Whole A h0 own (Nostr.Msg.ofRoot P (.cjson td fr) r cfg root) (ofRoot A P r cfg grow root) h := by
  have plain : ∀ (x : Err) (v : Res ClientMsg), v = .err x → Whole A h0 own v (M.pure (some x, .unknown)) h :=
    fun x v hv => ⟨_, h, rfl, .inl ⟨x, rfl, o, .inl hv⟩⟩
  unfold ofRoot Nostr.Msg.ofRoot
  cases asArr root with
  | none => exact plain _ _ rfl
  | some l =>
    cases l with
    | nil => exact plain _ _ rfl
    | cons t args =>
      cases hs : asStr t with
      | none =>
        simp only [hs]
        exact plain _ _ rfl
      | some t =>
        simp only [hs]
        by_cases h1 : t = c!"EVENT"
        · rw [if_pos h1, if_pos h1]
          exact finish_ok (eventArg_ok hA P td fr r cfg grow args o) .event .event fun _ _ _ _ h => h
        rw [if_neg h1, if_neg h1]
        by_cases h2 : t = c!"REQ"
        · rw [if_pos h2, if_pos h2]
          cases hi : idArg args with
          | ub => exact absurd hi (idArg_noub _)
          | err x => exact plain _ _ rfl
          | ok id => exact finish_ok (parseFilters_ok hA P r args.tail o) .req (.req id) fun _ _ _ _ h => h
        rw [if_neg h2, if_neg h2]
        by_cases h3 : t = c!"CLOSE"
        · rw [if_pos h3, if_pos h3]
          cases hi : idArg args with
          | ub => exact absurd hi (idArg_noub _)
          | err x => exact plain _ _ rfl
          | ok id => exact ⟨_, h, rfl, .inr ⟨.close id, [], rfl, rfl, rfl, o⟩⟩
        rw [if_neg h3, if_neg h3]
        by_cases h4 : t = c!"AUTH"
        · rw [if_pos h4, if_pos h4]
          exact finish_ok (eventArg_ok hA P td fr r cfg grow args o) .auth .auth fun _ _ _ _ h => h
        rw [if_neg h4, if_neg h4]
        by_cases h5 : t = c!"COUNT"
        · rw [if_pos h5, if_pos h5]
          cases hi : idArg args with
          | ub => exact absurd hi (idArg_noub _)
          | err x => exact plain _ _ rfl
          | ok id => exact finish_ok (parseFilters_ok hA P r args.tail o) .count (.count id) fun _ _ _ _ h => h
        rw [if_neg h5, if_neg h5]
        exact plain _ _ rfl

theorem Filters.mono {m m' : Mem} {f vs own} (h : Filters m f vs own) (hm : ∀ a ∈ own, m' a = m a) : Filters m' f vs own := by
  rcases h with h | ⟨a, os, h1, h2, h3⟩
  · exact .inl h
  · exact .inr ⟨a, os, h1, h2.mono fun x hx => hm x (by simp [h3, hx]), h3⟩

theorem EventAt.mono {m m' : Mem} {e v own} (h : EventAt m e v own) (hm : ∀ a ∈ own, m' a = m a) : EventAt m' e v own := by
  obtain ⟨x, h1, h2, h3⟩ := h
  exact ⟨x, h1, Ev.Props.text_mono h2 fun y hy => hm y (by simp [h3, Ev.Props.blocks, hy]), h3⟩

theorem MsgAt.mono {m m' : Mem} {x v own} (h : MsgAt m x v own) (hm : ∀ a ∈ own, m' a = m a) : MsgAt m' x v own := by
  cases x <;> cases v <;> first | exact h.elim | exact Filters.mono h hm | exact EventAt.mono h hm | exact h

theorem freeFilters_ok {h0 : Mem} {h : Heap} {f vs own} (hf : Filters h.mem f vs own) (o : Owned h0 h.mem own) :
    ∃ h', freeFilters f h = some ((), h') ∧ h'.mem = h0 := by
  unfold freeFilters
  rcases hf with ⟨h1, -, -, rfl⟩ | ⟨a, os, h1, i, rfl⟩
  · rw [h1]; exact ⟨h, rfl, o.eq⟩
  · rw [h1]
    obtain ⟨g, e1, o1, -⟩ := freeItems_ok a i o
    obtain ⟨g2, e2, o2, -⟩ := freeP (p := some a) (b := []) o1
    exact ⟨g2, by simp only [M.bind, e1, e2, Option.bind_some], o2.eq⟩

theorem freeEvent_ok {h0 : Mem} {h : Heap} {e v own} (he : EventAt h.mem e v own) (o : Owned h0 h.mem own) :
    ∃ h', freeEvent e h = some ((), h') ∧ h'.mem = h0 := by
  obtain ⟨x, rfl, ht, rfl⟩ := he
  obtain ⟨g, e1, o1⟩ := Ev.Props.destroy_ok (extra := []) ⟨by simpa using o, ht⟩
  exact ⟨g, e1, o1.eq⟩

theorem msgFree_ok {h0 : Mem} {h : Heap} {x v own} (hx : MsgAt h.mem x v own) (o : Owned h0 h.mem own) :
    ∃ h', msgFree x h = some (.event none, h') ∧ h'.mem = h0 := by
  cases x <;> cases v <;> first | exact hx.elim | skip
  · obtain ⟨g, e, m⟩ := freeEvent_ok hx o
    exact ⟨g, by simp only [msgFree, M.bind, e, Option.bind_some, M.pure], m⟩
  · obtain ⟨g, e, m⟩ := freeFilters_ok hx o
    exact ⟨g, by simp only [msgFree, M.bind, e, Option.bind_some, M.pure], m⟩
  · have : own = [] := hx
    subst this
    exact ⟨h, rfl, o.eq⟩
  · obtain ⟨g, e, m⟩ := freeEvent_ok hx o
    exact ⟨g, by simp only [msgFree, M.bind, e, Option.bind_some, M.pure], m⟩
  · obtain ⟨g, e, m⟩ := freeFilters_ok hx o
    exact ⟨g, by simp only [msgFree, M.bind, e, Option.bind_some, M.pure], m⟩

theorem MsgAt.stands {m : Mem} {x v own} (h : MsgAt m x v own) : Stands m x v := by
  have hf : ∀ {f vs own}, Filters m f vs own → ∃ own, Items m f.items vs own := by
    rintro f vs own (⟨-, h1, rfl, -⟩ | ⟨a, os, -, i, -⟩)
    · rw [h1]; exact ⟨[], .nil⟩
    · exact ⟨os, i⟩
  cases x <;> cases v <;> first | exact h.elim | skip
  · obtain ⟨e, rfl, ht, -⟩ := h; exact ht
  · exact hf h
  · trivial
  · obtain ⟨e, rfl, ht, -⟩ := h; exact ht
  · exact hf h

/-! ## C140 -/

/-- **C140.** Reading a client message, whatever the text, the configuration and the allocator: memory that is not owned is never
touched. Either the error of the text or a lack of memory is reported, memory is as it was and the message is of unknown type;
or the message is the one the text describes. In both cases releasing the message brings memory back as it was, and
releasing it again does nothing. -/
theorem C140_memory {A : Alloc} (hA : Fresh A) (P : Plat) (td : Int → Int) (fr : Int → Bytes) (r : Bytes → Json)
    (cfg : Option Config.Config) (grow : Event → List Bytes → Bool) (json : Bytes) (len : Nat) (h : Heap) :
    ∃ x h' z h'', clientParse A P r cfg grow json len h = some (x, h') ∧
      ((∃ e, x = (some e, .unknown) ∧ h'.mem = h.mem ∧
          (Nostr.Msg.clientParse P (.cjson td fr) r cfg json len = .err e ∨
           (Refused A h.mem ∧ (e = .relay .memory ∨ e = .relay .invalidJson)))) ∨
       ∃ v, x.1 = none ∧ Nostr.Msg.clientParse P (.cjson td fr) r cfg json len = .ok v ∧ Stands h'.mem x.2 v) ∧
      msgFree x.2 h' = some (z, h'') ∧ h''.mem = h.mem ∧ msgFree z h'' = some (z, h'') := by
  have none_ : ∀ g : Heap, msgFree .unknown g = some (.event none, g) := fun _ => rfl
  have again : ∀ g : Heap, msgFree (.event none) g = some (.event none, g) := fun _ => rfl
  unfold clientParse Nostr.Msg.clientParse
  cases parse (if len > 0 then json.take len else json) with
  | none => exact ⟨_, h, _, h, rfl, .inl ⟨_, rfl, rfl, .inl rfl⟩, none_ h, rfl, again h⟩
  | some root =>
    simp only [M.bind]
    rcases allocP hA (Owned.nil h.mem) Ev.blob with ⟨g, e1, m1, f1⟩ | ⟨t, g, e1, -, o1, k1⟩
    · exact ⟨(some (.relay .invalidJson), .unknown), g, _, g, by simp only [e1, Option.bind_some, M.pure],
        .inl ⟨_, rfl, m1, .inr ⟨f1, .inr rfl⟩⟩, none_ g, m1, again g⟩
    · obtain ⟨x, g2, e2, hx⟩ := ofRoot_ok hA P td fr r cfg grow root o1
      rcases hx with ⟨y, rfl, o2, hv⟩ | ⟨v, new, hr, hv, hm, o2⟩
      · obtain ⟨g3, e3, o3, -⟩ := freeP (p := some t) (b := []) o2
        exact ⟨(some y, .unknown), g3, _, g3, by simp only [M.bind, e1, e2, e3, Option.bind_some, M.pure],
          .inl ⟨y, rfl, o3.eq, hv⟩, none_ g3, o3.eq, again g3⟩
      · obtain ⟨g3, e3, o3, k3⟩ := freeP (p := some t) (b := new) (h := g2) (h0 := h.mem)
          (o2.perm (by simpa using List.perm_middle (l₁ := new) (l₂ := [])))
        have hm3 := hm.mono k3
        obtain ⟨g4, e4, m4⟩ := msgFree_ok hm3 o3
        exact ⟨x, g3, _, g4, by simp only [M.bind, e1, e2, e3, Option.bind_some, M.pure],
          .inr ⟨v, hr, hv, hm3.stands⟩, e4, m4, again g4⟩

/-- While memory lasts, exactly the messages the text describes are read. -/
theorem C140_enough_memory {A : Alloc} (hA : Fresh A) (P : Plat) (td : Int → Int) (fr : Int → Bytes) (r : Bytes → Json)
    (cfg : Option Config.Config) (grow : Event → List Bytes → Bool) (json : Bytes) (len : Nat) {h : Heap} (hm : ¬ Refused A h.mem)
    {v : ClientMsg} (hv : Nostr.Msg.clientParse P (.cjson td fr) r cfg json len = .ok v) :
    ∃ x h', clientParse A P r cfg grow json len h = some ((none, x), h') ∧ Stands h'.mem x v := by
  obtain ⟨x, h', z, h'', e, hx, -⟩ := C140_memory hA P td fr r cfg grow json len h
  rcases hx with ⟨y, -, -, hy | hy⟩ | ⟨w, h1, h2, h3⟩
  · rw [hv] at hy; cases hy
  · exact absurd hy.1 hm
  · rw [hv] at h2
    cases h2
    exact ⟨x.2, h', by rw [e, ← h1], h3⟩

/-- A platform for the sample. -/
def plat : Plat := ⟨fun _ => 0, false⟩

/-- Reading a request with one filter: whether it succeeded, the number of filters, the number of requests to the
allocator and the live blocks of the first 20, with the `k`-th request refused. -/
def sample (k : Nat) : Option (Bool × Nat × Nat × List Nat) :=
  (clientParse (Filter.Props.failAt k) plat (fun t => .num t) none (fun _ _ => false) c!"[\"REQ\",\"s\",{\"kinds\":[1],\"ids\":[\"ab\"]}]" 0
    ⟨fun _ => none, 0⟩).map fun x => (x.1.1.isNone, (match x.1.2 with | .req f => f.items.length | _ => 0), x.2.tick,
      (List.range 20).filter fun i => (x.2.mem (100 + i)).isSome)

/-- With enough memory the array, the list of ids, the id and the kinds stay allocated; without the seventh request nothing does. -/
example : sample 99 = some (true, 1, 7, [1, 4, 5, 6]) ∧ sample 6 = some (false, 0, 7, []) := by decide +kernel

end Nostr.Own.Msg.Props
