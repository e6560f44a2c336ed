import Verif.Own.Build
import Verif.Own.EvProps
import Verif.Gift.Lemmas
import Verif.Filter.HeapProps
import Verif.Nip47.Props
import Verif.Own.Defined

/-!
# Property theorems: C147, C148, C149

C147: a call that builds an event delivers the event described, or everything it allocated is released. C148: after a
failed call the caller's pointer does not point to released memory. C149: a remote signer's response names its recipient.
-/

namespace Nostr.Own.Build.Props
open Nostr Nostr.Heap Nostr.Event Nostr.Own Nostr.Own.Ev Nostr.Own.Ev.Props Nostr.Own.Defined

/-! ## Specification -/

/-- A call that started from the memory `m` and is to deliver `v` has done so: the caller's pointer is the event, the event
holds the content, and destroying it gives back the memory as it was before the call. -/
def Delivered (m : Mem) (v : Res Event) (o : Out) (h : Heap) : Prop :=
  ∃ w e, o = ⟨none, some e.self, some (w, e)⟩ ∧ v = .ok w ∧ e.content.bind h.mem = w.content.map .str ∧
    ∃ h', destroy e h = some ((), h') ∧ h'.mem = m

/-- A call has failed and left memory as it was, for a reason: `v` is that failure, or memory ran out. -/
def Undone (A : Alloc) (m : Mem) (v : Res Event) (o : Out) (h : Heap) : Prop :=
  ∃ x, o.status = some x ∧ o.ev = none ∧ (v = .err x ∨ (Refused A m ∧ x = .memory)) ∧ h.mem = m

/-- The caller's pointer points to memory that has been released. -/
def Dangling (o : Out) (h : Heap) : Prop := ∃ p, o.ptr = some p ∧ h.mem p = none

/-! ## Lemmas -/

/-- What a step is to do to the values. -/
def opVal (cfg : Option Config.Config) (v : Event) : Op → Res Event
  | .text t => .ok { v with content := some t }
  | .tag vs => Event.addTag cfg v vs
  | .ownTag vs => Event.addTag cfg v vs
  | .secret _ r => r >>= fun ct => .ok { v with content := some ct }
  | .hash f => f v

/-- What the steps are to do. -/
def val (cfg : Option Config.Config) : Event → List Op → Res Event
  | v, [] => .ok v
  | v, o :: os => opVal cfg v o >>= fun w => val cfg w os

/-- The functions that only compute identifier and signature leave the content alone. -/
def Keeps (os : List Op) : Prop := ∀ f, Op.hash f ∈ os → ∀ v w, f v = .ok w → w.content = v.content

theorem held_alloc {A : Alloc} (hA : Fresh A) {h0 : Mem} {h : Heap} {e : HEv} {c extra} (d : Held h0 h.mem e c extra) (o : Obj) :
    (∃ h', alloc A o h = some (none, h') ∧ h'.mem = h.mem ∧ Refused A h0) ∨
    ∃ t h', alloc A o h = some (some t, h') ∧ Held h0 h'.mem e c (t :: extra) ∧ h'.mem t = some o := by
  rcases allocP hA d.own o with h | ⟨t, h', e1, a1, o1, k1⟩
  · exact .inl h
  · refine .inr ⟨t, h', e1, ⟨o1.perm ?_, text_mono d.text fun x hx => k1 x (by simp [blocks, hx])⟩, a1⟩
    exact List.perm_middle.symm

theorem held_free {h0 : Mem} {h : Heap} {e : HEv} {c} {extra : List Nat} {p : Option Nat} (d : Held h0 h.mem e c (p.toList ++ extra)) :
    ∃ h', free p h = some ((), h') ∧ Held h0 h'.mem e c extra := by
  have o : Owned h0 h.mem (p.toList ++ (blocks e ++ extra)) := by
    refine d.own.perm ?_
    rw [← List.append_assoc, ← List.append_assoc]
    exact List.Perm.append_right _ List.perm_append_comm
  obtain ⟨h', e1, o1, k1⟩ := freeP o
  exact ⟨h', e1, o1, text_mono d.text fun x hx => k1 x (by simp [blocks, hx])⟩

theorem setText_ok {A : Alloc} (hA : Fresh A) {h0 : Mem} {h : Heap} {e : HEv} {c extra} (d : Held h0 h.mem e c extra) (s : Bytes) :
    (∃ h', setText A e s h = some ((some .memory, { e with content := none }), h') ∧ Refused A h0 ∧
      Held h0 h'.mem { e with content := none } none extra) ∨
    ∃ a h', setText A e s h = some ((none, { e with content := some a }), h') ∧
      Held h0 h'.mem { e with content := some a } (some s) extra := by
  unfold setText
  simp only [M.bind]
  have o : Owned h0 h.mem (e.content.toList ++ ((e.memory :: e.arena :: (e.tags.toList ++ [e.self])) ++ extra)) := by
    simpa [blocks] using d.own
  obtain ⟨h1, e1, o1, -⟩ := freeP o
  simp only [M.bind, e1, Option.bind_some]
  rcases allocP hA o1 (.str s) with ⟨h2, e2, m2, f2⟩ | ⟨a, h2, e2, a2, o2, -⟩
  · left
    simp only [M.bind, e2, Option.bind_some, M.pure, if_true]
    exact ⟨h2, rfl, f2, ⟨by rw [m2]; simpa [blocks] using o1, rfl⟩⟩
  · right
    simp only [M.bind, e2, Option.bind_some, M.pure]
    exact ⟨a, h2, rfl, ⟨by simpa [blocks] using o2, by simpa using a2⟩⟩

/-- What is known after a step. -/
def After (A : Alloc) (h0 : Mem) (extra : List Nat) (v : Res Event) (m : M (Option Err × Event × HEv)) (h : Heap) : Prop :=
  (∃ x u e' h' c', m h = some ((some x, u, e'), h') ∧ Held h0 h'.mem e' c' extra ∧ (v = .err x ∨ (Refused A h0 ∧ x = .memory))) ∨
  ∃ w e' h', m h = some ((none, w, e'), h') ∧ v = .ok w ∧ Held h0 h'.mem e' w.content extra

theorem addTag_after {A : Alloc} (hA : Fresh A) {h0 : Mem} {h : Heap} {e : HEv} {v : Event} {extra} (cfg : Option Config.Config)
    (grow : Bool) (vs : List Bytes) (d : Held h0 h.mem e v.content extra) :
    After A h0 extra (Event.addTag cfg v vs) (addTag A cfg grow v vs e) h := by
  rcases addTag_ok hA cfg grow vs d with ⟨x, e', h', e1, d1, hx⟩ | ⟨w, e', h', e1, d1, hw⟩
  · exact .inl ⟨x, v, e', h', _, e1, d1, hx⟩
  · exact .inr ⟨w, e', h', e1, hw, d1⟩

theorem secretStep_ok {A : Alloc} (hA : Fresh A) {h0 : Mem} {h : Heap} {e : HEv} {v : Event} {extra : List Nat} {tmp : Option Nat}
    (r : Res Bytes) (hr : r ≠ .ub) (d : Held h0 h.mem e v.content (tmp.toList ++ extra)) :
    After A h0 extra (r >>= fun ct => .ok { v with content := some ct }) (secretStep A tmp r v e) h := by
  unfold After secretStep
  cases r with
  | ub => exact absurd rfl hr
  | err x =>
    obtain ⟨h1, e1, d1⟩ := held_free d
    left
    simp only [M.bind, e1, Option.bind_some, M.pure]
    exact ⟨x, v, e, h1, _, rfl, d1, .inl rfl⟩
  | ok ct =>
    simp only [M.bind]
    rcases held_alloc hA d (.str ct) with ⟨h1, e1, m1, f1⟩ | ⟨c, h1, e1, d1, -⟩
    · obtain ⟨h2, e2, d2⟩ := held_free (h := h1) (by rw [m1]; exact d)
      left
      simp only [M.bind, e1, e2, Option.bind_some, M.pure]
      exact ⟨.memory, v, e, h2, _, rfl, d2, .inr ⟨f1, rfl⟩⟩
    · have d1' : Held h0 h1.mem e v.content (tmp.toList ++ (c :: extra)) :=
        ⟨d1.own.perm (List.Perm.append_left _ List.perm_middle.symm), d1.text⟩
      obtain ⟨h2, e2, d2⟩ := held_free d1'
      simp only [M.bind, e1, e2, Option.bind_some]
      rcases setText_ok hA d2 ct with ⟨h3, e3, f3, d3⟩ | ⟨a, h3, e3, d3⟩
      · obtain ⟨h4, e4, d4⟩ := held_free (p := some c) d3
        left
        simp only [M.bind, e3, e4, Option.bind_some, M.pure]
        exact ⟨.memory, _, _, h4, _, rfl, d4, .inr ⟨f3, rfl⟩⟩
      · obtain ⟨h4, e4, d4⟩ := held_free (p := some c) d3
        right
        simp only [M.bind, e3, e4, Option.bind_some, M.pure]
        exact ⟨_, _, h4, rfl, rfl, d4⟩

theorem step_ok {A : Alloc} (hA : Fresh A) {h0 : Mem} {h : Heap} {e : HEv} {v : Event} {extra : List Nat} (cfg : Option Config.Config)
    (grow : Event → List Bytes → Bool) (o : Op) (hv : opVal cfg v o ≠ .ub) (hk : Keeps [o]) (d : Held h0 h.mem e v.content extra) :
    After A h0 extra (opVal cfg v o) (step A cfg grow v e o) h := by
  cases o with
  | text t =>
    unfold After step
    simp only [M.bind]
    rcases setText_ok hA d t with ⟨h1, e1, f1, d1⟩ | ⟨a, h1, e1, d1⟩
    · left
      simp only [M.bind, e1, Option.bind_some, M.pure]
      exact ⟨.memory, _, _, h1, _, rfl, d1, .inr ⟨f1, rfl⟩⟩
    · right
      simp only [M.bind, e1, Option.bind_some, M.pure]
      exact ⟨_, _, h1, rfl, rfl, d1⟩
  | tag vs => exact addTag_after hA cfg _ vs d
  | ownTag vs =>
    unfold After step
    simp only [M.bind]
    rcases held_alloc hA d blob with ⟨h1, e1, m1, f1⟩ | ⟨t, h1, e1, d1, -⟩
    · left
      simp only [M.bind, e1, Option.bind_some, M.pure]
      exact ⟨.memory, v, e, h1, _, rfl, by rw [m1]; exact d, .inr ⟨f1, rfl⟩⟩
    · rcases addTag_after hA cfg (grow v vs) vs d1 with ⟨x, u, e', h2, c', e2, d2, hx⟩ | ⟨w, e', h2, e2, hw, d2⟩
      · obtain ⟨h3, e3, d3⟩ := held_free (p := some t) d2
        left
        simp only [M.bind, e1, e2, e3, Option.bind_some, M.pure]
        exact ⟨x, u, e', h3, _, rfl, d3, hx⟩
      · obtain ⟨h3, e3, d3⟩ := held_free (p := some t) d2
        right
        simp only [M.bind, e1, e2, e3, Option.bind_some, M.pure]
        exact ⟨w, e', h3, rfl, hw, d3⟩
  | secret b r =>
    have hr : r ≠ .ub := by rintro rfl; exact hv rfl
    cases b with
    | false => exact secretStep_ok (tmp := none) hA r hr d
    | true =>
      unfold After step
      simp only [M.bind]
      rcases held_alloc hA d blob with ⟨h1, e1, m1, f1⟩ | ⟨t, h1, e1, d1, -⟩
      · left
        simp only [M.bind, e1, Option.bind_some, M.pure]
        exact ⟨.memory, v, e, h1, _, rfl, by rw [m1]; exact d, .inr ⟨f1, rfl⟩⟩
      · have := secretStep_ok (tmp := some t) hA r hr d1
        unfold After at this
        simp only [M.bind, e1, Option.bind_some]
        exact this
  | hash f =>
    unfold After step
    simp only [M.bind]
    rcases held_alloc hA d blob with ⟨h1, e1, m1, f1⟩ | ⟨t, h1, e1, d1, -⟩
    · left
      simp only [M.bind, e1, Option.bind_some, M.pure]
      exact ⟨.memory, v, e, h1, _, rfl, by rw [m1]; exact d, .inr ⟨f1, rfl⟩⟩
    · obtain ⟨h2, e2, d2⟩ := held_free (p := some t) d1
      have hf' : opVal cfg v (.hash f) = f v := rfl
      rw [hf'] at hv ⊢
      cases hf : f v with
      | ub => exact absurd hf hv
      | err x =>
        left
        simp only [M.bind, e1, e2, Option.bind_some, M.pure]
        exact ⟨x, v, e, h2, _, rfl, d2, .inl rfl⟩
      | ok w =>
        right
        simp only [M.bind, e1, e2, Option.bind_some, M.pure]
        exact ⟨w, e, h2, rfl, rfl, by rw [hk f (by simp) v w hf]; exact d2⟩

/-- What is known at the end of a call. -/
def Ends (A : Alloc) (h0 : Mem) (extra : List Nat) (clear : Bool) (v : Res Event) (m : M Out) (h : Heap) : Prop :=
  (∃ x p h', m h = some (⟨some x, p, none⟩, h') ∧ Owned h0 h'.mem extra ∧ (v = .err x ∨ (Refused A h0 ∧ x = .memory)) ∧
    if clear then p = none else ∃ a, p = some a ∧ h0 a = none ∧ a ∉ extra) ∨
  ∃ w e' h', m h = some (⟨none, some e'.self, some (w, e')⟩, h') ∧ v = .ok w ∧ Held h0 h'.mem e' w.content extra

theorem self_new {h0 m : Mem} {e : HEv} {c extra} (d : Held h0 m e c extra) : h0 e.self = none ∧ e.self ∉ extra := by
  refine ⟨d.own.fresh _ (by simp [blocks]), fun hm => ?_⟩
  have := d.own.nodup
  rw [List.nodup_append] at this
  exact this.2.2 e.self (by simp [blocks]) e.self hm rfl

theorem giveUp_ok {A : Alloc} {h0 : Mem} {h : Heap} {e : HEv} {c extra} (d : Held h0 h.mem e c extra) (clear : Bool) (x : Err) {v : Res Event}
    (hv : v = .err x ∨ (Refused A h0 ∧ x = .memory)) : Ends A h0 extra clear v (giveUp clear e x) h := by
  obtain ⟨h', e1, o1⟩ := destroy_ok d
  left
  refine ⟨x, if clear then none else some e.self, h', ?_, o1, hv, ?_⟩
  · unfold giveUp
    simp only [M.bind, e1, Option.bind_some, M.pure]
  · cases clear with
    | true => rfl
    | false => exact ⟨e.self, rfl, self_new d⟩

theorem run_ok {A : Alloc} (hA : Fresh A) {h0 : Mem} {extra : List Nat} (cfg : Option Config.Config)
    (grow : Event → List Bytes → Bool) (clear : Bool) : ∀ (os : List Op) (v : Event) (e : HEv) (h : Heap), val cfg v os ≠ .ub → Keeps os →
    Held h0 h.mem e v.content extra → Ends A h0 extra clear (val cfg v os) (run A cfg grow clear v e os) h := by
  intro os
  induction os with
  | nil => intro v e h _ _ d; exact .inr ⟨v, e, h, rfl, rfl, d⟩
  | cons o os ih =>
    intro v e h hv hk d
    have ho : opVal cfg v o ≠ .ub := by intro h'; apply hv; unfold val; rw [h']; rfl
    have hk1 : Keeps [o] := fun f hf => hk f (by simp only [List.mem_singleton] at hf; simp [hf])
    rcases step_ok hA cfg grow o ho hk1 d with ⟨x, u, e', h1, c', e1, d1, hx⟩ | ⟨w, e', h1, e1, hw, d1⟩
    · have hx' : val cfg v (o :: os) = .err x ∨ (Refused A h0 ∧ x = .memory) := by
        rcases hx with hx | hx
        · left; unfold val; rw [hx]; rfl
        · exact .inr hx
      have := giveUp_ok d1 clear x hx'
      unfold Ends at this ⊢
      unfold run
      simp only [M.bind, e1, Option.bind_some]
      exact this
    · have hv' : val cfg v (o :: os) = val cfg w os := by
        rw [val, hw]; rfl
      rw [hv'] at hv ⊢
      have := ih w e' h1 hv (fun f hf => hk f (List.mem_cons_of_mem _ hf)) d1
      unfold Ends at this ⊢
      unfold run
      simp only [M.bind, e1, Option.bind_some]
      exact this

theorem createInto_ok {A : Alloc} (hA : Fresh A) {h0 : Mem} {h : Heap} {extra : List Nat} (o : Owned h0 h.mem extra) :
    (∃ p h', createInto A h = some ((none, p), h') ∧ create A h = some (none, h') ∧ Owned h0 h'.mem extra ∧ Refused A h0 ∧
      ∀ a, p = some a → h0 a = none ∧ a ∉ extra) ∨
    ∃ e h', createInto A h = some ((some e, some e.self), h') ∧ create A h = some (some e, h') ∧ Held h0 h'.mem e none extra ∧
      e.content = none := by
  unfold createInto create
  simp only [M.bind]
  rcases allocP hA o blob with ⟨h1, e1, m1, f1⟩ | ⟨b1, h1, e1, -, o1, k1⟩
  · simp only [M.bind, e1, Option.bind_some, M.pure]
    exact .inl ⟨none, h1, rfl, rfl, by rw [m1]; exact o, f1, fun a ha => by cases ha⟩
  · have hb : ∀ a, some b1 = some a → h0 a = none ∧ a ∉ extra := by
      rintro a ⟨⟩
      exact ⟨o1.fresh _ (by simp), (List.nodup_cons.1 o1.nodup).1⟩
    simp only [M.bind, e1, Option.bind_some]
    rcases allocP hA o1 blob with ⟨h2, e2, m2, f2⟩ | ⟨b2, h2, e2, -, o2, k2⟩
    · simp only [M.bind, e2, Option.bind_some]
      obtain ⟨h3, e3, o3, -⟩ := freeP (h := h2) (p := some b1) (by rw [m2]; exact o1)
      simp only [M.bind, e3, Option.bind_some, M.pure]
      exact .inl ⟨some b1, h3, rfl, rfl, o3, f2, hb⟩
    · simp only [M.bind, e2, Option.bind_some]
      rcases allocP hA o2 blob with ⟨h3, e3, m3, f3⟩ | ⟨b3, h3, e3, -, o3, k3⟩
      · simp only [M.bind, e3, Option.bind_some]
        obtain ⟨h4, e4, o4, -⟩ := freeP (h := h3) (p := some b2) (by rw [m3]; exact o2)
        obtain ⟨h5, e5, o5, -⟩ := freeP (h := h4) (p := some b1) o4
        simp only [M.bind, e4, e5, Option.bind_some, M.pure]
        exact .inl ⟨some b1, h5, rfl, rfl, o5, f3, hb⟩
      · simp only [M.bind, e3, Option.bind_some, M.pure]
        exact .inr ⟨⟨b1, none, b2, b3, none⟩, h3, rfl, rfl, ⟨o3, rfl⟩, rfl⟩

/-- Everything about a call that builds an event: how it ends, and what the caller's pointer is. -/
def Call (A : Alloc) (m : M Out) (v : Res Event) (h : Heap) (clear : Bool) : Prop :=
  ∃ o h', m h = some (o, h') ∧ (Delivered h.mem v o h' ∨ Undone A h.mem v o h') ∧
    (o.status ≠ none → (∃ e h1, create A h = some (some e, h1)) → if clear then o.ptr = none else Dangling o h')

theorem call_of_ends {A : Alloc} {m : M Out} {v : Res Event} {h h1 : Heap} {clear : Bool} (he : Ends A h.mem [] clear v m h1) :
    ∃ o h', m h1 = some (o, h') ∧ (Delivered h.mem v o h' ∨ Undone A h.mem v o h') ∧
      (o.status ≠ none → if clear then o.ptr = none else Dangling o h') := by
  rcases he with ⟨x, p, h', e1, o1, hx, hp⟩ | ⟨w, e, h', e1, hw, d⟩
  · have hm := o1.eq
    refine ⟨_, h', e1, .inr ⟨x, rfl, rfl, hx, hm⟩, fun _ => ?_⟩
    cases clear with
    | true => exact hp
    | false =>
      obtain ⟨a, ha, hn, -⟩ := hp
      exact ⟨a, ha, by rw [hm]; exact hn⟩
  · obtain ⟨h'', e2, o2⟩ := destroy_ok d
    exact ⟨_, h', e1, .inl ⟨w, e, rfl, hw, d.text, h'', e2, o2.eq⟩, fun hs => absurd rfl hs⟩

theorem build_ok {A : Alloc} (hA : Fresh A) (cfg : Option Config.Config) (grow : Event → List Bytes → Bool) (clear : Bool) (v : Event)
    (hc : v.content = none) (os : List Op) (hv : val cfg v os ≠ .ub) (hk : Keeps os) (h : Heap) :
    Call A (build A cfg grow clear v os) (val cfg v os) h clear := by
  unfold Call build
  simp only [M.bind]
  rcases createInto_ok hA (Owned.nil h.mem) with ⟨p, h1, e1, c1, o1, f1, hp⟩ | ⟨e, h1, e1, c1, d1, -⟩
  · simp only [M.bind, e1, Option.bind_some, M.pure]
    refine ⟨_, h1, rfl, .inr ⟨.memory, rfl, rfl, .inr ⟨f1, rfl⟩, o1.eq⟩, fun _ ⟨e, h2, he⟩ => ?_⟩
    rw [c1] at he; cases he
  · simp only [M.bind, e1, Option.bind_some]
    obtain ⟨o, h', e2, h2, h3⟩ := call_of_ends (run_ok hA cfg grow clear os v e h1 hv hk (by rw [hc]; exact d1))
    exact ⟨o, h', e2, h2, fun hs _ => h3 hs⟩

theorem refuse_ok {A : Alloc} {h : Heap} {v : Res Event} {x : Err} {old : Option Nat} (hv : v = .err x) :
    ∃ o h', refuse old x h = some (o, h') ∧ (Delivered h.mem v o h' ∨ Undone A h.mem v o h') ∧ o.ptr = old :=
  ⟨_, h, rfl, .inr ⟨x, rfl, rfl, .inl hv, rfl⟩, rfl⟩

/-- Steps that only set the content and add tags. -/
def Plain : Op → Bool
  | .text _ => true
  | .tag _ => true
  | .ownTag _ => true
  | _ => false

theorem addTag_noub (cfg : Option Config.Config) (v : Event) (vs : List Bytes) : Event.addTag cfg v vs ≠ .ub := by
  unfold Event.addTag
  split
  · intro h; cases h
  · split <;> intro h <;> cases h

theorem plain_noub (cfg : Option Config.Config) : ∀ (os : List Op) (v : Event), os.all Plain = true → val cfg v os ≠ .ub := by
  intro os
  induction os with
  | nil => intro v _ h; cases h
  | cons o os ih =>
    intro v hp h
    simp only [List.all_cons, Bool.and_eq_true] at hp
    rw [val] at h
    cases o with
    | text t => exact ih _ hp.2 h
    | tag vs =>
      rcases Res.bind_eq_ub.1 h with h | ⟨w, -, h⟩
      · exact addTag_noub _ _ _ h
      · exact ih _ hp.2 h
    | ownTag vs =>
      rcases Res.bind_eq_ub.1 h with h | ⟨w, -, h⟩
      · exact addTag_noub _ _ _ h
      · exact ih _ hp.2 h
    | secret b r => cases hp.1
    | hash f => cases hp.1

theorem plain_keeps {os : List Op} (hp : os.all Plain = true) : Keeps os := fun f hf => by
  have := List.all_eq_true.1 hp _ hf
  cases this

theorem val_append (cfg : Option Config.Config) : ∀ (os qs : List Op) (v : Event),
    val cfg v (os ++ qs) = val cfg v os >>= fun w => val cfg w qs := by
  intro os
  induction os with
  | nil => intro qs v; rfl
  | cons o os ih =>
    intro qs v
    rw [List.cons_append, val, val, Res.bind_assoc]
    congr 1
    funext w
    exact ih qs w

theorem val_tags (cfg : Option Config.Config) : ∀ (ts : List (List Bytes)) (v : Event),
    val cfg v (ts.map .tag) = Nip51.addAll cfg v ts := by
  intro ts
  induction ts with
  | nil => intro v; rfl
  | cons t ts ih =>
    intro v
    rw [List.map_cons, val, Nip51.addAll]
    congr 1
    funext w
    exact ih w

theorem bind_ok_right {α} (x : Res α) : (x >>= fun w => Res.ok w) = x := by cases x <;> rfl

/-! ## C147 -/

/-- What is proved of every call: it ends, it delivers or undoes, and when it fails although an event could be created, the
pointer is NULL or as it was. -/
def Safe (A : Alloc) (m : M Out) (v : Res Event) (old : Option Nat) (h : Heap) : Prop :=
  ∃ o h', m h = some (o, h') ∧ (Delivered h.mem v o h' ∨ Undone A h.mem v o h') ∧
    (o.status ≠ none → (∃ e h1, create A h = some (some e, h1)) → o.ptr = none ∨ o.ptr = old)

theorem Call.safe {A : Alloc} {m : M Out} {v : Res Event} {h : Heap} (c : Call A m v h true) (old : Option Nat) : Safe A m v old h := by
  obtain ⟨o, h', e1, h1, h2⟩ := c
  exact ⟨o, h', e1, h1, fun hs he => .inl (h2 hs he)⟩

theorem refuse_safe {A : Alloc} {v : Res Event} {h : Heap} {old : Option Nat} {x : Err} (hv : v = .err x) : Safe A (refuse old x) v old h := by
  obtain ⟨o, h', e1, h1, h2⟩ := refuse_ok (A := A) (h := h) (old := old) hv
  exact ⟨o, h', e1, h1, fun _ _ => .inr h2⟩

theorem repost_safe {A : Alloc} (hA : Fresh A) (cfg : Option Config.Config) (grow : Event → List Bytes → Bool) (old : Option Nat) (now : Int)
    (id pubkey relay : Bytes) (kind : Nat) (d json : Option Bytes) (h : Heap) :
    Safe A (repost A cfg grow old now id pubkey relay kind d json) (Nip18.repostCreate cfg now id pubkey relay kind d json) old h := by
  unfold repost Nip18.repostCreate
  split
  · exact refuse_safe rfl
  · have hp : ∀ os : List Op, os.all Plain = true → Safe A (build A cfg grow true { zero with createdAt := now, kind := if kind = 1 then 6 else 16 } os)
        (val cfg { zero with createdAt := now, kind := if kind = 1 then 6 else 16 } os) old h := fun os hp =>
      (build_ok hA cfg grow true _ rfl os (plain_noub cfg os _ hp) (plain_keeps hp) h).safe old
    by_cases hk : kind = 1
    · cases d with
      | none =>
        have := hp ([.text (json.getD []), .tag [c!"e", id, relay], .tag [c!"p", pubkey]]) rfl
        simpa [hk, val, opVal, Res.bind_ok, bind_ok_right] using this
      | some d =>
        have := hp ([.text (json.getD []), .tag [c!"e", id, relay], .tag [c!"p", pubkey],
          .ownTag [c!"a", Num.decNat kind ++ c!":" ++ pubkey ++ c!":" ++ d]]) rfl
        simpa [hk, val, opVal, Res.bind_ok, bind_ok_right] using this
    · cases d with
      | none =>
        have := hp ([.text (json.getD []), .tag [c!"e", id, relay], .tag [c!"p", pubkey], .tag [c!"k", Num.decNat kind]]) rfl
        simpa [hk, val, opVal, Res.bind_ok, bind_ok_right] using this
      | some d =>
        have := hp ([.text (json.getD []), .tag [c!"e", id, relay], .tag [c!"p", pubkey], .tag [c!"k", Num.decNat kind],
          .ownTag [c!"a", Num.decNat kind ++ c!":" ++ pubkey ++ c!":" ++ d]]) rfl
        simpa [hk, val, opVal, Res.bind_ok, bind_ok_right] using this


theorem reaction_safe {A : Alloc} (hA : Fresh A) (cfg : Option Config.Config) (grow : Event → List Bytes → Bool) (old : Option Nat) (now : Int)
    (content : Option Bytes) (id pubkey : Bytes) (relay : Option Bytes) (kind : Nat) (h : Heap) :
    Safe A (reaction A cfg grow old now content id pubkey relay kind) (Nip25.create cfg now content id pubkey relay kind) old h := by
  unfold reaction Nip25.create
  split
  · exact refuse_safe rfl
  · have hp : ∀ os : List Op, os.all Plain = true → Safe A (build A cfg grow true { zero with createdAt := now, kind := 7 } os)
        (val cfg { zero with createdAt := now, kind := 7 } os) old h := fun os hp =>
      (build_ok hA cfg grow true _ rfl os (plain_noub cfg os _ hp) (plain_keeps hp) h).safe old
    by_cases hk : kind > 0
    · have := hp ([.text (content.getD (c!"+")), .tag [c!"e", id, relay.getD [], pubkey], .tag ([c!"p", pubkey] ++ relay.toList),
        .tag [c!"k", Num.decNat kind]]) rfl
      simpa [hk, val, opVal, Res.bind_ok, bind_ok_right] using this
    · have := hp ([.text (content.getD (c!"+")), .tag [c!"e", id, relay.getD [], pubkey], .tag ([c!"p", pubkey] ++ relay.toList)]) rfl
      simpa [hk, val, opVal, Res.bind_ok, bind_ok_right] using this

theorem tags_plain (ts : List (List Bytes)) : (ts.map Op.tag).all Plain = true := by
  rw [List.all_map, List.all_eq_true]
  intro t _; rfl

theorem relayList_safe {A : Alloc} (hA : Fresh A) (cfg : Option Config.Config) (grow : Event → List Bytes → Bool) (old : Option Nat) (now : Int)
    (l : Nip65.Lst) (h : Heap) : Safe A (relayList A cfg grow now l) (Nip65.toEvent cfg now l) old h := by
  have hp : (Op.text [] :: (l.entries.map Nip65.entryTag).map Op.tag).all Plain = true := by
    rw [List.all_cons, tags_plain]; rfl
  have := (build_ok hA cfg grow true { zero with kind := 10002, createdAt := now } rfl _ (plain_noub cfg _ _ hp) (plain_keeps hp) h).safe old
  rw [val] at this
  simp only [opVal, Res.bind_ok, val_tags] at this
  unfold relayList Nip65.toEvent
  rw [List.map_map] at this
  exact this

theorem hash_keeps (C : Crypto) (b : Build) (aux : Option Bytes) (sk : Bytes) (v w : Event) :
    (computeId C b v = .ok w → w.content = v.content) ∧ (sign C b aux sk v = .ok w → w.content = v.content) := by
  constructor
  · intro h
    obtain ⟨t, -, rfl⟩ := Gift.computeId_ok h
    rfl
  · intro h
    obtain ⟨pk, t, r, s, -, -, -, -, rfl⟩ := Gift.sign_ok h
    rfl

theorem list_safe {A : Alloc} (hA : Fresh A) (N : Nip44.Nc) (B : Nip44.B64) (cfg : Option Config.Config) (grow : Event → List Bytes → Bool)
    (old : Option Nat) (now : Int) (nonce : Option Bytes) (keys : Option Nip51.Keys) (l : Nip51.Lst)
    (hu : Nip51.toEvent N B cfg now nonce keys l ≠ .ub) (h : Heap) :
    Safe A (list A N B cfg grow old now nonce keys l) (Nip51.toEvent N B cfg now nonce keys l) old h := by
  revert hu
  unfold list Nip51.toEvent
  split
  · intro _; exact refuse_safe rfl
  · intro hu
    have hp : ∀ os : List Op, Keeps os →
        val cfg { zero with kind := l.kind, createdAt := now }
          ((Nip51.headTags l ++ (l.items.filter fun it => !it.priv).map Nip51.itemTag).map .tag ++ os) ≠ .ub →
        Safe A (build A cfg grow true { zero with kind := l.kind, createdAt := now }
          ((Nip51.headTags l ++ (l.items.filter fun it => !it.priv).map Nip51.itemTag).map .tag ++ os))
        (val cfg { zero with kind := l.kind, createdAt := now }
          ((Nip51.headTags l ++ (l.items.filter fun it => !it.priv).map Nip51.itemTag).map .tag ++ os)) old h := fun os hk hn =>
      (build_ok hA cfg grow true _ rfl _ hn (fun f hf => by
        rcases List.mem_append.1 hf with hf | hf
        · exact plain_keeps (tags_plain _) f hf
        · exact hk f hf) h).safe old
    cases keys with
    | none =>
      have := hp [.text []] (plain_keeps rfl)
      simp only [val_append, val_tags, val, opVal, Res.bind_ok] at this hu ⊢
      exact this hu
    | some k =>
      by_cases ha : l.items.any (·.priv) = true
      · have := hp [.secret true (Nip51.privateText l.items >>= fun t => Nip44.encrypt N B cfg nonce k.sk k.pk t)]
          (fun f hf => by simp at hf)
        simp only [val_append, val_tags, val, opVal, bind_ok_right, ha, if_true, Res.bind_assoc] at this hu ⊢
        exact this hu
      · have := hp [.text []] (plain_keeps rfl)
        simp only [val_append, val_tags, val, opVal, Res.bind_ok, ha] at this hu ⊢
        exact this hu


theorem zap_call {A : Alloc} (hA : Fresh A) (cfg : Option Config.Config) (grow : Event → List Bytes → Bool) (old : Option Nat) (now : Int)
    (amount : Nat) (recipient : Bytes) (lnurl content : Option Bytes) (relays : List Bytes) (hr : relays ≠ []) (h : Heap) :
    Call A (zapRequest A cfg grow old now amount recipient lnurl content relays)
      (Zap.createRequest cfg now amount recipient lnurl content relays) h false := by
  unfold zapRequest Zap.createRequest
  rw [if_neg hr, if_neg hr]
  have hp : ∀ os : List Op, os.all Plain = true → Call A (build A cfg grow false { zero with createdAt := now, kind := 9734 } os)
      (val cfg { zero with createdAt := now, kind := 9734 } os) h false := fun os hp =>
    build_ok hA cfg grow false _ rfl os (plain_noub cfg os _ hp) (plain_keeps hp) h
  have hz : zero.content = none := rfl
  cases hc : content.filter (· ≠ []) with
  | none =>
    cases lnurl with
    | none =>
      have := hp ([.tag (Zap.relayTag relays), .tag [c!"amount", Num.decNat amount], .tag [c!"p", Hex.hexEncode recipient]]) rfl
      simpa [val, opVal, Res.bind_ok, bind_ok_right, Hex.keyToHex, hz] using this
    | some u =>
      have := hp ([.tag (Zap.relayTag relays), .tag [c!"amount", Num.decNat amount], .tag [c!"lnurl", u], .tag [c!"p", Hex.hexEncode recipient]]) rfl
      simpa [val, opVal, Res.bind_ok, bind_ok_right, Hex.keyToHex, hz] using this
  | some t =>
    cases lnurl with
    | none =>
      have := hp ([.text t, .tag (Zap.relayTag relays), .tag [c!"amount", Num.decNat amount], .tag [c!"p", Hex.hexEncode recipient]]) rfl
      simpa [val, opVal, Res.bind_ok, bind_ok_right, Hex.keyToHex] using this
    | some u =>
      have := hp ([.text t, .tag (Zap.relayTag relays), .tag [c!"amount", Num.decNat amount], .tag [c!"lnurl", u], .tag [c!"p", Hex.hexEncode recipient]]) rfl
      simpa [val, opVal, Res.bind_ok, bind_ok_right, Hex.keyToHex] using this

theorem wallet_safe {A : Alloc} (hA : Fresh A) (E : Nip47.Env) (grow : Event → List Bytes → Bool) (old : Option Nat) (now : Int)
    (nonce aux : Option Bytes) (sk wallet method paramsJson : Bytes)
    (hu : Nip47.request E now nonce aux sk wallet method paramsJson ≠ .ub) (h : Heap) :
    Safe A (walletRequest A E grow now nonce aux sk wallet method paramsJson) (Nip47.request E now nonce aux sk wallet method paramsJson) old h := by
  unfold Safe walletRequest
  simp only [M.bind]
  rcases createInto_ok hA (Owned.nil h.mem) with ⟨p, h1, e1, c1, o1, f1, hp⟩ | ⟨e, h1, e1, c1, d1, -⟩
  · simp only [M.bind, e1, Option.bind_some, M.pure]
    refine ⟨_, h1, rfl, .inr ⟨.memory, rfl, rfl, .inr ⟨f1, rfl⟩, o1.eq⟩, fun _ ⟨e, h2, he⟩ => ?_⟩
    rw [c1] at he; cases he
  · simp only [M.bind, e1, Option.bind_some]
    revert hu
    unfold Nip47.request
    cases hk : E.crypto.pubOf sk with
    | none =>
      intro _
      obtain ⟨o, h', e2, h2, h3⟩ := call_of_ends (giveUp_ok (A := A) (v := Res.err .invalidKey) d1 true .invalidKey (.inl rfl))
      exact ⟨o, h', e2, h2, fun hs _ => .inl (h3 hs)⟩
    | some pk =>
      intro hu
      have hv : val E.cfg { zero with kind := 23194, createdAt := now, pubkey := pk }
          [.tag [c!"p", Hex.hexEncode wallet], .tag [c!"encryption", c!"nip44_v2"],
            .secret false (Nip47.payload method paramsJson >>= fun text => Nip44.encrypt E.nc E.b64 E.cfg nonce sk wallet text),
            .hash (computeId E.crypto E.build), .hash (sign E.crypto E.build aux sk)] =
          (Event.addTag E.cfg { zero with kind := 23194, createdAt := now, pubkey := pk } [c!"p", Hex.hexEncode wallet] >>= fun e1 =>
            Event.addTag E.cfg e1 [c!"encryption", c!"nip44_v2"] >>= fun e2 =>
            Nip47.payload method paramsJson >>= fun text =>
            Nip44.encrypt E.nc E.b64 E.cfg nonce sk wallet text >>= fun ct =>
            computeId E.crypto E.build { e2 with content := some ct } >>= fun e3 =>
            sign E.crypto E.build aux sk e3) := by
        simp only [val, opVal, Res.bind_ok, bind_ok_right, Res.bind_assoc]
      have hkeep : Keeps [.tag [c!"p", Hex.hexEncode wallet], .tag [c!"encryption", c!"nip44_v2"],
            .secret false (Nip47.payload method paramsJson >>= fun text => Nip44.encrypt E.nc E.b64 E.cfg nonce sk wallet text),
            .hash (computeId E.crypto E.build), .hash (sign E.crypto E.build aux sk)] := by
        intro f hf v w hw
        simp only [List.mem_cons, List.not_mem_nil, or_false, reduceCtorEq, false_or, Op.hash.injEq] at hf
        rcases hf with rfl | rfl
        · exact (hash_keeps E.crypto E.build none [] v w).1 hw
        · exact (hash_keeps E.crypto E.build aux sk v w).2 hw
      simp only at hu ⊢
      rw [← hv] at hu ⊢
      obtain ⟨o, h', e2, h2, h3⟩ := call_of_ends (run_ok hA E.cfg grow true _ _ e h1 hu hkeep d1)
      exact ⟨o, h', e2, h2, fun hs _ => .inl (h3 hs)⟩

/-- The response without the tag that names its recipient. -/
def bare (E : Nip47.Env) (r : Bytes → Json.Json) (now : Int) (nonce aux : Option Bytes) (p : Nip46.Response) (sk peer : Bytes) : Res Event :=
  Nip44.encrypt E.nc E.b64 E.cfg nonce sk peer (Nip46.responseText r p) >>= fun ct =>
  computeId E.crypto E.build { zero with kind := Nip46.kind46, createdAt := now, content := some ct } >>= fun e1 =>
  sign E.crypto E.build aux sk e1

theorem response_ok {A : Alloc} (hA : Fresh A) (E : Nip47.Env) (r : Bytes → Json.Json) (grow : Event → List Bytes → Bool) (old : Option Nat)
    (now : Int) (nonce aux : Option Bytes) (p : Nip46.Response) (sk peer : Bytes)
    (hu : Nip46.createResponse E r now nonce aux p sk peer ≠ .ub) (hb : bare E r now nonce aux p sk peer ≠ .ub) (h : Heap) :
    ∃ o h' v, response A E r grow old now nonce aux p sk peer h = some (o, h') ∧
      (v = Nip46.createResponse E r now nonce aux p sk peer ∨ (v = bare E r now nonce aux p sk peer ∧ Refused A h.mem)) ∧
      (Delivered h.mem v o h' ∨ Undone A h.mem v o h') ∧ (o.status ≠ none → o.status ≠ some .memory → o.ptr = none ∨ o.ptr = old) := by
  revert hu hb
  unfold response Nip46.createResponse bare
  simp only [M.bind]
  rcases allocP hA (Owned.nil h.mem) blob with ⟨h1, e1, m1, f1⟩ | ⟨t, h1, e1, -, o1, -⟩
  · intro _ _
    simp only [M.bind, e1, Option.bind_some, refuse, M.pure]
    exact ⟨_, h1, _, rfl, .inl rfl, .inr ⟨.memory, rfl, rfl, .inr ⟨f1, rfl⟩, m1⟩, fun _ _ => .inr rfl⟩
  · simp only [M.bind, e1, Option.bind_some]
    cases hn : Nip44.encrypt E.nc E.b64 E.cfg nonce sk peer (Nip46.responseText r p) with
    | ub => intro hu; exact absurd rfl hu
    | err x =>
      intro _ _
      obtain ⟨h2, e2, o2, -⟩ := freeP (p := some t) o1
      simp only [M.bind, e2, Option.bind_some, refuse, M.pure]
      exact ⟨_, h2, _, rfl, .inl rfl, .inr ⟨x, rfl, rfl, .inl rfl, o2.eq⟩, fun _ _ => .inr rfl⟩
    | ok ct =>
      simp only [Res.bind_ok]
      intro hu hb
      rcases allocP hA o1 (.str ct) with ⟨h2, e2, m2, f2⟩ | ⟨c, h2, e2, -, o2, -⟩
      · obtain ⟨h3, e3, o3, -⟩ := freeP (h := h2) (p := some t) (by rw [m2]; exact o1)
        simp only [M.bind, e2, e3, Option.bind_some, refuse, M.pure]
        exact ⟨_, h3, _, rfl, .inl rfl, .inr ⟨.memory, rfl, rfl, .inr ⟨f2, rfl⟩, o3.eq⟩, fun _ _ => .inr rfl⟩
      · obtain ⟨h3, e3, o3, -⟩ := freeP (p := some t) (b := [c]) (o2.perm (List.Perm.swap _ _ _))
        simp only [M.bind, e2, e3, Option.bind_some]
        rcases createInto_ok hA o3 with ⟨q, h4, e4, -, o4, f4, hq⟩ | ⟨e, h4, e4, -, d4, -⟩
        · obtain ⟨h5, e5, o5, -⟩ := freeP (p := some c) o4
          simp only [M.bind, e4, e5, Option.bind_some, M.pure]
          exact ⟨_, h5, _, rfl, .inl rfl, .inr ⟨.memory, rfl, rfl, .inr ⟨f4, rfl⟩, o5.eq⟩, fun _ hs => absurd rfl hs⟩
        · simp only [M.bind, e4, Option.bind_some]
          rcases setText_ok hA d4 ct with ⟨h5, e5, f5, d5⟩ | ⟨a, h5, e5, d5⟩
          · obtain ⟨h6, e6, d6⟩ := held_free (p := some c) d5
            simp only [M.bind, e5, e6, Option.bind_some]
            obtain ⟨o, h', e7, h7, h8⟩ := call_of_ends (h := h) (giveUp_ok (A := A) (v := Res.err .memory) d6 true .memory (.inl rfl))
            refine ⟨o, h', _, e7, .inl rfl, .inr ?_, fun hs _ => .inl (h8 hs)⟩
            rcases h7 with ⟨w, e, -, hw, -⟩ | ⟨x, h9, h10, h11, h12⟩
            · cases hw
            · refine ⟨x, h9, h10, .inr ⟨f5, ?_⟩, h12⟩
              rcases h11 with h11 | h11
              · cases h11; rfl
              · exact h11.2
          · obtain ⟨h6, e6, d6⟩ := held_free (p := some c) d5
            simp only [M.bind, e5, e6, Option.bind_some]
            have hkeep : Keeps [.hash (computeId E.crypto E.build), .hash (sign E.crypto E.build aux sk)] := by
              intro f hf v w hw
              simp only [List.mem_cons, List.not_mem_nil, or_false, Op.hash.injEq] at hf
              rcases hf with rfl | rfl
              · exact (hash_keeps E.crypto E.build none [] v w).1 hw
              · exact (hash_keeps E.crypto E.build aux sk v w).2 hw
            have fin : ∀ (v : Event) (e' : HEv) (h7 : Heap), (computeId E.crypto E.build v >>= fun e1 => sign E.crypto E.build aux sk e1) ≠ .ub →
                Held h.mem h7.mem e' v.content [] →
                ∃ o h', run A E.cfg grow true v e' [.hash (computeId E.crypto E.build), .hash (sign E.crypto E.build aux sk)] h7 = some (o, h') ∧
                  (Delivered h.mem (computeId E.crypto E.build v >>= fun e1 => sign E.crypto E.build aux sk e1) o h' ∨
                    Undone A h.mem (computeId E.crypto E.build v >>= fun e1 => sign E.crypto E.build aux sk e1) o h') ∧
                  (o.status ≠ none → o.ptr = none) := by
              intro v e' h7 hv d7
              have hv' : val E.cfg v [.hash (computeId E.crypto E.build), .hash (sign E.crypto E.build aux sk)] =
                  (computeId E.crypto E.build v >>= fun e1 => sign E.crypto E.build aux sk e1) := by
                simp only [val, opVal, bind_ok_right]
              rw [← hv'] at hv ⊢
              exact call_of_ends (run_ok hA E.cfg grow true _ v e' h7 hv hkeep d7)
            unfold signResponse
            simp only [M.bind]
            unfold Nip46.addP at hu ⊢
            rcases addTag_ok (v := { zero with kind := Nip46.kind46, createdAt := now, content := some ct }) hA E.cfg
              (grow { zero with kind := Nip46.kind46, createdAt := now, content := some ct } [c!"p", Hex.hexEncode peer])
              [c!"p", Hex.hexEncode peer] d6 with ⟨x, e', h7, e7, d7, hx⟩ | ⟨w, e', h7, e7, d7, hw⟩
            · simp only [M.bind, e7, Option.bind_some]
              obtain ⟨o, h', e8, h8, h9⟩ := fin _ _ h7 hb d7
              refine ⟨o, h', _, e8, ?_, h8, fun hs _ => .inl (h9 hs)⟩
              rcases hx with hx | hx
              · left; rw [hx]
              · exact .inr ⟨rfl, hx.1⟩
            · simp only [M.bind, e7, Option.bind_some]
              rw [hw] at hu ⊢
              obtain ⟨o, h', e8, h8, h9⟩ := fin _ _ h7 hu d7
              exact ⟨o, h', _, e8, .inl rfl, h8, fun hs _ => .inl (h9 hs)⟩


theorem Safe.c147 {A : Alloc} {m : M Out} {v : Res Event} {old : Option Nat} {h : Heap} (s : Safe A m v old h) :
    ∃ o h', m h = some (o, h') ∧ (Delivered h.mem v o h' ∨ Undone A h.mem v o h') := by
  obtain ⟨o, h', e1, h1, -⟩ := s
  exact ⟨o, h', e1, h1⟩

/-- **C147.** A repost is built as described, or nothing is left of it, whatever the allocator refuses. -/
theorem C147_repost {A : Alloc} (hA : Fresh A) (cfg : Option Config.Config) (grow : Event → List Bytes → Bool) (old : Option Nat) (now : Int)
    (id pubkey relay : Bytes) (kind : Nat) (d json : Option Bytes) (h : Heap) :
    ∃ o h', repost A cfg grow old now id pubkey relay kind d json h = some (o, h') ∧
      (Delivered h.mem (Nip18.repostCreate cfg now id pubkey relay kind d json) o h' ∨
        Undone A h.mem (Nip18.repostCreate cfg now id pubkey relay kind d json) o h') :=
  (repost_safe hA cfg grow old now id pubkey relay kind d json h).c147

/-- **C147.** A reaction. -/
theorem C147_reaction {A : Alloc} (hA : Fresh A) (cfg : Option Config.Config) (grow : Event → List Bytes → Bool) (old : Option Nat) (now : Int)
    (content : Option Bytes) (id pubkey : Bytes) (relay : Option Bytes) (kind : Nat) (h : Heap) :
    ∃ o h', reaction A cfg grow old now content id pubkey relay kind h = some (o, h') ∧
      (Delivered h.mem (Nip25.create cfg now content id pubkey relay kind) o h' ∨
        Undone A h.mem (Nip25.create cfg now content id pubkey relay kind) o h') :=
  (reaction_safe hA cfg grow old now content id pubkey relay kind h).c147

/-- **C147.** The event of a relay list. -/
theorem C147_relay_list {A : Alloc} (hA : Fresh A) (cfg : Option Config.Config) (grow : Event → List Bytes → Bool) (now : Int)
    (l : Nip65.Lst) (h : Heap) :
    ∃ o h', relayList A cfg grow now l h = some (o, h') ∧
      (Delivered h.mem (Nip65.toEvent cfg now l) o h' ∨ Undone A h.mem (Nip65.toEvent cfg now l) o h') :=
  (relayList_safe hA cfg grow none now l h).c147

/-- **C147.** The event of a list, with or without private items. -/
theorem C147_list {A : Alloc} (hA : Fresh A) (N : Nip44.Nc) (B : Nip44.B64) {cfg : Option Config.Config} (hc : Nip44.Spec.CfgOK cfg)
    (grow : Event → List Bytes → Bool) (old : Option Nat) (now : Int) (nonce : Option Bytes) (keys : Option Nip51.Keys) (l : Nip51.Lst) (h : Heap) :
    ∃ o h', list A N B cfg grow old now nonce keys l h = some (o, h') ∧
      (Delivered h.mem (Nip51.toEvent N B cfg now nonce keys l) o h' ∨ Undone A h.mem (Nip51.toEvent N B cfg now nonce keys l) o h') :=
  (list_safe hA N B cfg grow old now nonce keys l (list_defined N B hc now nonce keys l) h).c147

/-- **C147.** A zap request. -/
theorem C147_zap_request {A : Alloc} (hA : Fresh A) (cfg : Option Config.Config) (grow : Event → List Bytes → Bool) (old : Option Nat)
    (now : Int) (amount : Nat) (recipient : Bytes) (lnurl content : Option Bytes) (relays : List Bytes) (h : Heap) :
    ∃ o h', zapRequest A cfg grow old now amount recipient lnurl content relays h = some (o, h') ∧
      (Delivered h.mem (Zap.createRequest cfg now amount recipient lnurl content relays) o h' ∨
        Undone A h.mem (Zap.createRequest cfg now amount recipient lnurl content relays) o h') := by
  by_cases hr : relays = []
  · obtain ⟨o, h', e1, h1, -⟩ := refuse_ok (A := A) (h := h) (old := old) (v := Zap.createRequest cfg now amount recipient lnurl content relays)
      (x := .invalidParam) (by unfold Zap.createRequest; rw [if_pos hr])
    refine ⟨o, h', ?_, h1⟩
    unfold zapRequest
    rw [if_pos hr]
    exact e1
  · obtain ⟨o, h', e1, h1, -⟩ := zap_call hA cfg grow old now amount recipient lnurl content relays hr h
    exact ⟨o, h', e1, h1⟩

/-- **C147.** A request to a wallet. -/
theorem C147_wallet_request {A : Alloc} (hA : Fresh A) (E : Nip47.Env) (hc : Nip44.Spec.CfgOK E.cfg) (hK : Keys32 E.crypto)
    (grow : Event → List Bytes → Bool) {now : Int} (ht : Clock now) (nonce aux : Option Bytes) (sk wallet method paramsJson : Bytes) (h : Heap) :
    ∃ o h', walletRequest A E grow now nonce aux sk wallet method paramsJson h = some (o, h') ∧
      (Delivered h.mem (Nip47.request E now nonce aux sk wallet method paramsJson) o h' ∨
        Undone A h.mem (Nip47.request E now nonce aux sk wallet method paramsJson) o h') :=
  (wallet_safe hA E grow none now nonce aux sk wallet method paramsJson (request_defined hc hK ht nonce aux sk wallet method paramsJson) h).c147

/-- C147 for responses of a remote signer: the same, except that the event may lack the tag that names the recipient (see C149). -/
theorem C147_response {A : Alloc} (hA : Fresh A) (E : Nip47.Env) (hc : Nip44.Spec.CfgOK E.cfg) (hK : Keys32 E.crypto) (r : Bytes → Json.Json)
    (grow : Event → List Bytes → Bool) (old : Option Nat) {now : Int} (ht : Clock now) (nonce aux : Option Bytes) (p : Nip46.Response)
    (sk peer : Bytes) (h : Heap) :
    ∃ o h' v, response A E r grow old now nonce aux p sk peer h = some (o, h') ∧
      (v = Nip46.createResponse E r now nonce aux p sk peer ∨ (v = bare E r now nonce aux p sk peer ∧ Refused A h.mem)) ∧
      (Delivered h.mem v o h' ∨ Undone A h.mem v o h') := by
  obtain ⟨o, h', v, e1, h1, h2, -⟩ := response_ok hA E r grow old now nonce aux p sk peer
    (response_defined hc hK ht r nonce aux p sk peer)
    (bind_ub (encrypt_defined _ _ hc _ _ _ _) fun _ _ => answer_defined hK _ _ _ (addP_small ht E.cfg _ peer).1) h
  exact ⟨o, h', v, e1, h1, h2⟩

/-- No memory in use. -/
def blank : Heap := ⟨fun _ => none, 0⟩

/-- Status and values after a call. -/
def seen (m : M Out) : Option (Option Err × Option Event) := (m blank).map fun r => (r.1.status, r.1.ev.map (·.1))

/-- Sixty-four digits. -/
def digits : Bytes := List.replicate 64 0x61

/-- Both cases occur: a generic repost with its address is delivered when memory lasts, with every tag; when the eighth request
is refused the call fails. -/
example : ((seen (repost (Filter.Props.failAt 99) none (fun _ _ => false) none 5 digits digits c!"r" 30023 (some c!"d") none)).map
      fun r => (r.1, r.2.map fun e => e.tags.length)) = some (none, some 4) ∧
    seen (repost (Filter.Props.failAt 7) none (fun _ _ => false) none 5 digits digits c!"r" 30023 (some c!"d") none) =
      some (some .memory, none) := by
  decide +kernel

/-! ## C148 -/

/-- **C148 (part).** When the event could be created and the call fails later, the caller's pointer is NULL, or as it was if the
call refused its arguments. This holds of reposts, reactions, relay lists, lists and wallet requests. -/
theorem C148_cleared_partial {A : Alloc} (hA : Fresh A) (cfg : Option Config.Config) (grow : Event → List Bytes → Bool) (old : Option Nat)
    {now : Int} (ht : Clock now) (h : Heap) (hc : ∃ e h1, create A h = some (some e, h1)) {o : Out} {h' : Heap} (hs : o.status ≠ none) :
    (∀ id pubkey relay kind d json, repost A cfg grow old now id pubkey relay kind d json h = some (o, h') → o.ptr = none ∨ o.ptr = old) ∧
    (∀ content id pubkey relay kind, reaction A cfg grow old now content id pubkey relay kind h = some (o, h') → o.ptr = none ∨ o.ptr = old) ∧
    (∀ l, relayList A cfg grow now l h = some (o, h') → o.ptr = none) ∧
    (∀ N B nonce keys l, Nip44.Spec.CfgOK cfg → list A N B cfg grow old now nonce keys l h = some (o, h') →
      o.ptr = none ∨ o.ptr = old) ∧
    (∀ E nonce aux sk wallet method ps, Nip44.Spec.CfgOK E.cfg → Keys32 E.crypto →
      walletRequest A E grow now nonce aux sk wallet method ps h = some (o, h') → o.ptr = none) := by
  have use : ∀ {m : M Out} {v : Res Event} {old : Option Nat}, Safe A m v old h → m h = some (o, h') → o.ptr = none ∨ o.ptr = old := by
    intro m v old s he
    obtain ⟨o', h'', e1, -, h2⟩ := s
    rw [he] at e1; cases e1
    exact h2 hs hc
  refine ⟨fun id pubkey relay kind d json => use (repost_safe hA cfg grow old now id pubkey relay kind d json h),
    fun content id pubkey relay kind => use (reaction_safe hA cfg grow old now content id pubkey relay kind h),
    fun l he => (use (relayList_safe hA cfg grow none now l h) he).elim (fun h => h) fun h => h,
    fun N B nonce keys l hC => use (list_safe hA N B cfg grow old now nonce keys l (list_defined N B hC now nonce keys l) h),
    fun E nonce aux sk wallet method ps hC hK he =>
      (use (wallet_safe hA E grow none now nonce aux sk wallet method ps (request_defined hC hK ht nonce aux sk wallet method ps) h) he).elim (fun h => h) fun h => h⟩

/-- C148 (part): a response of a remote signer that fails for any reason but memory leaves the pointer NULL or as it was. -/
theorem C148_response_partial {A : Alloc} (hA : Fresh A) (E : Nip47.Env) (hc : Nip44.Spec.CfgOK E.cfg) (hK : Keys32 E.crypto) (r : Bytes → Json.Json) (grow : Event → List Bytes → Bool)
    (old : Option Nat) {now : Int} (ht : Clock now) (nonce aux : Option Bytes) (p : Nip46.Response) (sk peer : Bytes)
    {h h' : Heap} {o : Out}
    (he : response A E r grow old now nonce aux p sk peer h = some (o, h')) (hs : o.status ≠ none) (hm : o.status ≠ some .memory) :
    o.ptr = none ∨ o.ptr = old := by
  obtain ⟨o', h'', v, e1, -, -, h3⟩ := response_ok hA E r grow old now nonce aux p sk peer (response_defined hc hK ht r nonce aux p sk peer)
    (bind_ub (encrypt_defined _ _ hc _ _ _ _) fun _ _ => answer_defined hK _ _ _ (addP_small ht E.cfg _ peer).1) h
  rw [he] at e1; cases e1
  exact h3 hs hm

theorem build_dangling (cfg : Option Config.Config) (grow : Event → List Bytes → Bool) (clear : Bool) (v : Event) (os : List Op) :
    ∃ o h', build (Filter.Props.failAt 1) cfg grow clear v os blank = some (o, h') ∧ o.status = some .memory ∧ Dangling o h' :=
  ⟨⟨some .memory, some 100, none⟩, _, rfl, rfl, 100, rfl, rfl⟩

/-- C148 fails: when there is memory for the event but not for its arena, creating the event leaves the caller's pointer on the
block just released, and every builder hands it on: reposts, reactions, relay lists, lists and wallet requests, whatever
the arguments are. -/
theorem C148_create_refuted (cfg : Option Config.Config) (grow : Event → List Bytes → Bool) (old : Option Nat) (now : Int) :
    ∃ A : Alloc, Fresh A ∧
    (∀ id pubkey relay kind d json, Nip51.hex64 id = true → Nip51.hex64 pubkey = true →
      ∃ o h', repost A cfg grow old now id pubkey relay kind d json blank = some (o, h') ∧ o.status = some .memory ∧ Dangling o h') ∧
    (∀ content id pubkey relay kind, Nip51.hex64 id = true → Nip51.hex64 pubkey = true →
      ∃ o h', reaction A cfg grow old now content id pubkey relay kind blank = some (o, h') ∧ o.status = some .memory ∧ Dangling o h') ∧
    (∀ l, ∃ o h', relayList A cfg grow now l blank = some (o, h') ∧ o.status = some .memory ∧ Dangling o h') ∧
    (∀ N B nonce k l, ∃ o h', list A N B cfg grow old now nonce (some k) l blank = some (o, h') ∧ o.status = some .memory ∧ Dangling o h') ∧
    (∀ E nonce aux sk wallet method ps,
      ∃ o h', walletRequest A E grow now nonce aux sk wallet method ps blank = some (o, h') ∧ o.status = some .memory ∧ Dangling o h') := by
  refine ⟨Filter.Props.failAt 1, failAt_fresh 1, ?_, ?_, ?_, ?_, ?_⟩
  · intro id pubkey relay kind d json h1 h2
    unfold repost
    rw [if_neg (by simp [h1, h2])]
    exact build_dangling ..
  · intro content id pubkey relay kind h1 h2
    unfold reaction
    rw [if_neg (by simp [h1, h2])]
    exact build_dangling ..
  · intro l
    exact build_dangling ..
  · intro N B nonce k l
    unfold list
    rw [if_neg (by simp)]
    exact build_dangling ..
  · intro E nonce aux sk wallet method ps
    exact ⟨⟨some .memory, some 100, none⟩, _, rfl, rfl, 100, rfl, rfl⟩

/-- C148 fails for zap requests in every case: whenever the event could be created and the call fails, for whatever reason, the
caller's pointer points to released memory. -/
theorem C148_zap_refuted {A : Alloc} (hA : Fresh A) (cfg : Option Config.Config) (grow : Event → List Bytes → Bool) (old : Option Nat)
    (now : Int) (amount : Nat) (recipient : Bytes) (lnurl content : Option Bytes) {relays : List Bytes} (hr : relays ≠ []) {h h' : Heap} {o : Out}
    (hc : ∃ e h1, create A h = some (some e, h1)) (he : zapRequest A cfg grow old now amount recipient lnurl content relays h = some (o, h'))
    (hs : o.status ≠ none) : Dangling o h' := by
  obtain ⟨o', h'', e1, -, h2⟩ := zap_call hA cfg grow old now amount recipient lnurl content relays hr h
  rw [he] at e1; cases e1
  exact h2 hs hc

/-- It happens without any lack of memory: with a limit of two tags, which the configuration allows, a zap request fails. -/
example : (create (Filter.Props.failAt 99) blank).isSome = true ∧
    (zapRequest (Filter.Props.failAt 99) (some { Config.defaults with maxTags := 2 }) (fun _ _ => false) none 5 1000 (List.replicate 32 7)
      none none [c!"wss://r"] blank).map (fun r => (r.1.status, r.1.ptr, (r.2.mem 100).isSome)) =
      some (some .invalidParam, some 100, false) := by
  decide +kernel

/-! ## C149 -/

theorem addP_tags {cfg : Option Config.Config} {v : Event} {peer : Bytes} (hl : ∀ c, cfg = some c → 1 ≤ c.maxTags) (hv : v.tags = []) :
    (Nip46.addP cfg v peer).tags = [[c!"p", Hex.Spec.hexText peer]] := by
  have ha : Event.addTag cfg v [c!"p", Hex.hexEncode peer] = .ok { v with tags := v.tags ++ [[c!"p", Hex.hexEncode peer]] } := by
    unfold Event.addTag
    rw [if_neg (by simp), if_neg]
    cases cfg with
    | none => simp
    | some c =>
      have := hl c rfl
      simp [hv]
      omega
  unfold Nip46.addP
  rw [ha, ← Hex.hexEncode_eq, hv]
  rfl

/-- **C149 (part).** When memory is never refused and the configuration is in its documented ranges, a response that is reported as created names
its recipient, in one tag. -/
theorem C149_recipient_partial {A : Alloc} (hA : Fresh A) (E : Nip47.Env) (hc : Nip44.Spec.CfgOK E.cfg) (hK : Keys32 E.crypto) (r : Bytes → Json.Json) (grow : Event → List Bytes → Bool)
    (old : Option Nat) {now : Int} (ht : Clock now) (nonce aux : Option Bytes) (p : Nip46.Response) (sk peer : Bytes)
    {h h' : Heap} {o : Out}
    (hm : ¬ Refused A h.mem)
    (he : response A E r grow old now nonce aux p sk peer h = some (o, h')) (hs : o.status = none) :
    ∃ w e, o.ev = some (w, e) ∧ w.tags = [[c!"p", Hex.Spec.hexText peer]] := by
  have hl : ∀ c, E.cfg = some c → 1 ≤ c.maxTags := fun c h => (hc c (by rw [h]; rfl)).2.2.2.2.2.1.1
  obtain ⟨o', h'', v, e1, hv, h2, -⟩ := response_ok hA E r grow old now nonce aux p sk peer (response_defined hc hK ht r nonce aux p sk peer)
    (bind_ub (encrypt_defined _ _ hc _ _ _ _) fun _ _ => answer_defined hK _ _ _ (addP_small ht E.cfg _ peer).1) h
  rw [he] at e1; cases e1
  rcases hv with rfl | ⟨-, hx⟩
  · rcases h2 with ⟨w, e, rfl, hw, -⟩ | ⟨x, hx, -⟩
    · refine ⟨w, e, rfl, ?_⟩
      unfold Nip46.createResponse at hw
      obtain ⟨ct, -, h3⟩ := Res.bind_eq_ok.1 hw
      obtain ⟨e2, h4, h5⟩ := Res.bind_eq_ok.1 h3
      obtain ⟨t, -, rfl⟩ := Gift.computeId_ok h4
      obtain ⟨pk, t', r', s', -, -, -, -, rfl⟩ := Gift.sign_ok h5
      show (Nip46.addP E.cfg _ peer).tags = _
      exact addP_tags hl rfl
    · rw [hs] at hx; cases hx
  · exact absurd hx hm

/-- The signer's surroundings, the response "ack" to the request "a1". -/
def ack (k : Nat) : M Out :=
  response (Filter.Props.failAt k) Nip47.Props.toyEnv (fun t => .num t) (fun _ _ => false) none 9 (some (List.replicate 32 1)) (some [])
    ⟨c!"a1", some (c!"ack"), none⟩ (List.replicate 32 1) (List.replicate 32 4)

/-- C149 fails: when memory for the tag is refused, a signed response that names nobody is reported as created. -/
theorem C149_memory_refuted : ∃ A, Fresh A ∧ ∃ E r grow now nonce aux p sk peer o h' w e,
    response A E r grow none now nonce aux p sk peer blank = some (o, h') ∧ o.status = none ∧ o.ev = some (w, e) ∧ w.tags = [] := by
  have h1 : (seen (ack 6)).map (fun r => (r.1, r.2.map fun e => e.tags)) = some (none, some []) := by decide +kernel
  unfold seen at h1
  cases hr : ack 6 blank with
  | none => rw [hr] at h1; cases h1
  | some q =>
    rw [hr] at h1
    simp only [Option.map_some, Option.some.injEq, Prod.mk.injEq] at h1
    obtain ⟨h2, h3⟩ := h1
    cases he : q.1.ev with
    | none => rw [he] at h3; cases h3
    | some we =>
      rw [he] at h3
      simp only [Option.map_some, Option.some.injEq] at h3
      exact ⟨_, failAt_fresh 6, _, _, _, _, _, _, _, _, _, q.1, q.2, we.1, we.2, hr, h2, he, h3⟩

/-- With memory the same response names its recipient. -/
example : (seen (ack 99)).map (fun r => (r.1, r.2.map fun e => e.tags)) =
    some (none, some [[c!"p", Hex.Spec.hexText (List.replicate 32 4)]]) := by
  decide +kernel

/-- The hypotheses are met: an allocator that never refuses exists, and the values of the same response. -/
example : Fresh generous ∧ ¬ Refused generous blank.mem ∧
    (Nip46.createResponse Nip47.Props.toyEnv (fun t => .num t) 9 (some (List.replicate 32 1)) (some [])
      ⟨c!"a1", some (c!"ack"), none⟩ (List.replicate 32 1) (List.replicate 32 4)).isOk = true ∧
    (bare Nip47.Props.toyEnv (fun t => .num t) 9 (some (List.replicate 32 1)) (some [])
      ⟨c!"a1", some (c!"ack"), none⟩ (List.replicate 32 1) (List.replicate 32 4)).isOk = true := by
  refine ⟨generous_fresh, generous_never (live := []) fun _ _ => rfl, ?_⟩
  decide +kernel

end Nostr.Own.Build.Props
