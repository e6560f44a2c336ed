import Verif.Own.RelaySpec
import Verif.Own.EvProps
import Verif.Relay.FaultProps
import Verif.Relay.Props

/-! # Lemmas for the memory of a relay connection -/

namespace Nostr.Own.Relay
open Nostr Nostr.Heap Nostr.Event Nostr.Json Nostr.Own Nostr.Own.Ev
open Nostr.Relay (Sub Call Rx NSub validSubId reqText closeText eventText absorb maxBuffer removeF findF)
open Nostr.Relay.Life (St)

/-- The linked list of subscriptions and its blocks. -/
inductive LL (m : Mem) : Option Nat → List NSub → List Nat → Prop
  | nil : LL m none [] []
  | cons {a p cb nx name o ss own} (ha : m a = some (.ptrs [p, cb, nx])) (hn : OptS m p name o) (ht : LL m nx ss own) :
      LL m (some a) (⟨name, cb⟩ :: ss) (a :: (o ++ own))

theorem LL.mono {m m' : Mem} {p ns own} (h : LL m p ns own) (hm : ∀ x ∈ own, m' x = m x) : LL m' p ns own := by
  induction h with
  | nil => exact .nil
  | @cons a p cb nx name o ss own ha hn _ ih =>
    refine .cons ((hm a (by simp)).trans ha) (hn.mono fun x hx => hm x (by simp [hx])) (ih fun x hx => hm x (by simp [hx]))

theorem loadPtr_at {h : Heap} {a i : Nat} {l : List (Option Nat)} {q : Option Nat} (ha : h.mem a = some (.ptrs l)) (hi : l[i]? = some q) :
    loadPtr (some a) i h = some (q, h) := by simp [loadPtr, ha, hi]

theorem storePtr_at {h : Heap} {a i : Nat} {l : List (Option Nat)} {q : Option Nat} (ha : h.mem a = some (.ptrs l)) (hi : i < l.length) :
    storePtr a i q h = some ((), ⟨upd h.mem a (some (.ptrs (l.set i q))), h.tick⟩) := by simp [storePtr, ha, hi]

theorem loadStr_at {h : Heap} {a : Nat} {s : Bytes} (ha : h.mem a = some (.str s)) : loadStr a h = some (s, h) := by
  simp [loadStr, ha]

theorem set_same {l : List (Option Nat)} {i : Nat} {q : Option Nat} (h : l[i]? = some q) : l.set i q = l := by
  obtain ⟨hi, rfl⟩ := List.getElem?_eq_some_iff.1 h
  exact List.set_getElem_self hi

theorem bind_at {α β} {m : M α} {f : α → M β} {h h' : Heap} {x : α} (e : m h = some (x, h')) : M.bind m f h = f x h' := by
  unfold M.bind; rw [e]; rfl

theorem load_at {h : Heap} {a : Nat} (ha : h.mem a ≠ none) : ∃ o, load a h = some (o, h) := by
  cases hm : h.mem a with
  | none => exact absurd hm ha
  | some o => exact ⟨o, by simp [load, hm]⟩

theorem search_ok (id : Bytes) {h : Heap} {p ns own} (l : LL h.mem p ns own) : ∀ f, ns.length < f →
    match findF id ns with
    | .ok none => search id f p h = some (none, h)
    | .ok (some x) => ∃ s q nx, search id f p h = some (some s, h) ∧ s ∈ own ∧ h.mem s = some (.ptrs [q, x.cb, nx])
    | _ => search id f p h = none ∧ ∃ s ∈ ns, s.id = none := by
  induction l with
  | nil => intro f hf; cases f with
    | zero => omega
    | succ f => rfl
  | @cons a p cb nx name o ss own ha hn ht ih =>
    intro f hf
    cases f with
    | zero => omega
    | succ f =>
      simp only [List.length_cons] at hf
      have h0 := loadPtr_at (i := 0) ha rfl
      have h2 := loadPtr_at (i := 2) ha rfl
      cases hn with
      | null => exact ⟨by simp [search, M.bind, h0], ⟨none, cb⟩, by simp, rfl⟩
      | @str q s hq =>
        have hs := loadStr_at hq
        by_cases hid : s = id
        · simp only [findF, if_pos hid]
          exact ⟨a, some q, nx, by simp [search, M.bind, h0, hs, hid, M.pure], by simp, ha⟩
        · simp only [findF, if_neg hid]
          have := ih f (by omega)
          have e : search id (f + 1) (some a) h = search id f nx h := by simp [search, M.bind, h0, hs, hid, h2]
          rw [e]
          split at this
          · exact this
          · obtain ⟨s, q, nx, h1, h2, h3⟩ := this
            exact ⟨s, q, nx, h1, by simp [h2], h3⟩
          · obtain ⟨h1, s, h2, h3⟩ := this
            exact ⟨h1, s, by simp [h2], h3⟩

/-- Unlinking. `(a, i)` is the place that points to the list. -/
theorem unlink_ok (id : Bytes) {h0 : Mem} {h : Heap} {p ns own} (l : LL h.mem p ns own) : ∀ (f a i : Nat) (cells : List (Option Nat)) (rest : List Nat),
    ns.length < f → h.mem a = some (.ptrs cells) → cells[i]? = some p → Owned h0 h.mem (own ++ rest) → a ∈ rest →
    match removeF id ns with
    | .ok ns' => ∃ h' p' own', unlink id f a i h = some ((), h') ∧ h'.mem a = some (.ptrs (cells.set i p')) ∧
        LL h'.mem p' ns' own' ∧ Owned h0 h'.mem (own' ++ rest) ∧ ∀ x ∈ rest, x ≠ a → h'.mem x = h.mem x
    | _ => unlink id f a i h = none ∧ ∃ s ∈ ns, s.id = none := by
  induction l with
  | nil =>
    intro f a i cells rest hf ha hi o har
    cases f with
    | zero => omega
    | succ f =>
      have hl := loadPtr_at ha hi
      exact ⟨h, none, [], by simp [unlink, M.bind, hl, M.pure],
        by rw [ha, set_same hi], .nil, o, fun _ _ _ => rfl⟩
  | @cons s p cb nx name o ss own hs hn ht ih =>
    intro f a i cells rest hf ha hi ow har
    cases f with
    | zero => omega
    | succ f =>
      simp only [List.length_cons] at hf
      have hl := loadPtr_at ha hi
      have l0 := loadPtr_at (i := 0) hs rfl
      have l2 := loadPtr_at (i := 2) hs rfl
      have hd := List.nodup_append.1 ow.nodup
      have hilt : i < cells.length := (List.getElem?_eq_some_iff.1 hi).1
      cases hn with
      | null => exact ⟨by simp [unlink, M.bind, hl, l0], ⟨none, cb⟩, by simp, rfl⟩
      | @str q nm hq =>
        have hr := loadStr_at hq
        by_cases hid : nm = id
        · simp only [removeF, if_pos hid]
          have st := storePtr_at (q := nx) ha hilt
          have hne : ∀ x ∈ s :: ([q] ++ own), x ≠ a := fun x hx e => hd.2.2 x hx a har e
          have o1 := ow.write (c := a) (by simp [har]) (.ptrs (cells.set i nx))
          obtain ⟨h2, e2, o2, k2⟩ := freeP (h := ⟨upd h.mem a (some (.ptrs (cells.set i nx))), h.tick⟩) (p := some q)
            (b := s :: (own ++ rest)) (o1.perm (by simpa using List.Perm.swap q s (own ++ rest)))
          obtain ⟨h3, e3, o3, k3⟩ := freeP (h := h2) (p := some s) (b := own ++ rest) o2
          have kk : ∀ x ∈ own ++ rest, x ≠ a → h3.mem x = h.mem x := fun x hx hxa => by
            rw [k3 x hx, k2 x (by simp only [List.mem_cons]; exact .inr hx)]
            exact upd_other _ _ hxa
          refine ⟨h3, nx, own, by simp [unlink, M.bind, hl, l0, hr, hid, l2, st, e2, e3], ?_, ht.mono fun x hx => ?_, o3, ?_⟩
          · rw [k3 a (by simp [har]), k2 a (by simp [har])]; simp
          · exact kk x (by simp [hx]) (hne x (by simp [hx]))
          · exact fun x hx hxa => kk x (by simp [hx]) hxa
        · simp only [removeF, if_neg hid]
          have e : unlink id (f + 1) a i h = unlink id f s 2 h := by simp [unlink, M.bind, hl, l0, hr, hid]
          rw [e]
          have := ih f s 2 _ (s :: q :: rest) (by omega) hs rfl (ow.perm (by
            refine List.Perm.trans ?_ (List.perm_middle (l₁ := own) (l₂ := q :: rest) (a := s)).symm
            simpa using (List.perm_middle (l₁ := own) (l₂ := rest) (a := q)).symm)) (by simp)
          split at this
          · rename_i ns' hns
            obtain ⟨h', p', own', h1, h2, h3, h4, h5⟩ := this
            have hd' := List.nodup_append.1 h4.nodup
            have hqs : q ≠ s := by
              have := (List.nodup_cons.1 hd.1).1; rintro rfl; simp at this
            rw [hns]
            refine ⟨h', some s, s :: ([q] ++ own'), h1, ?_, .cons h2 (.str ((h5 q (by simp) hqs).trans hq)) h3, h4.perm ?_, ?_⟩
            · rw [h5 a (by simp [har]) (fun e => hd.2.2 s (by simp) a har e.symm), ha, set_same hi]
            · refine (List.perm_middle (l₁ := own') (l₂ := q :: rest) (a := s)).trans ?_
              simpa using (List.perm_middle (l₁ := own') (l₂ := rest) (a := q))
            · intro x hx hxa
              exact h5 x (by simp [hx]) (fun e => hd.2.2 s (by simp) x hx e.symm)
          · rename_i hns
            obtain ⟨h1, x, h2, h3⟩ := this
            cases hf' : removeF id ss with
            | ok ns' => exact absurd hf' (hns ns')
            | err x' => exact ⟨h1, x, by simp [h2], h3⟩
            | ub => exact ⟨h1, x, by simp [h2], h3⟩

/-- Releasing the list. -/
theorem freeSubs_ok {h0 : Mem} (c : Nat) (t : List (Option Nat)) (rest : List Nat) (hc : c ∈ rest) :
    ∀ (ns : List NSub) (f : Nat) (h : Heap) (p : Option Nat) (own : List Nat), LL h.mem p ns own → ns.length < f →
    h.mem c = some (.ptrs (p :: t)) → Owned h0 h.mem (own ++ rest) →
    ∃ h', freeSubs c f h = some ((), h') ∧ h'.mem c = some (.ptrs (none :: t)) ∧ Owned h0 h'.mem rest ∧
      ∀ x ∈ rest, x ≠ c → h'.mem x = h.mem x := by
  intro ns
  induction ns with
  | nil =>
    intro f h p own l hf hm o
    cases l
    cases f with
    | zero => omega
    | succ f => exact ⟨h, by simp [freeSubs, M.bind, loadPtr_at (i := 0) hm rfl, M.pure], hm, o, fun _ _ _ => rfl⟩
  | cons n ns ih =>
    intro f h p own l hf hm o
    cases f with
    | zero => omega
    | succ f =>
      simp only [List.length_cons] at hf
      cases l with
      | @cons s p cb nx name op ss own hs hn ht =>
        have hd := List.nodup_append.1 o.nodup
        have hne : ∀ x ∈ s :: (op ++ own), x ≠ c := fun x hx e => hd.2.2 x hx c hc e
        have o1 := o.write (c := c) (by simp [hc]) (.ptrs (nx :: t))
        have hpo : op = p.toList := by cases hn <;> rfl
        have st : storePtr c 0 nx h = some ((), ⟨upd h.mem c (some (.ptrs (nx :: t))), h.tick⟩) := storePtr_at hm (by simp)
        have l0 : loadPtr (some s) 0 ⟨upd h.mem c (some (.ptrs (nx :: t))), h.tick⟩ = some (p, ⟨upd h.mem c (some (.ptrs (nx :: t))), h.tick⟩) :=
          loadPtr_at (l := [p, cb, nx]) (by rw [← hs]; exact upd_other _ _ (hne s (by simp))) rfl
        obtain ⟨h2, e2, o2, k2⟩ := freeP (h := ⟨upd h.mem c (some (.ptrs (nx :: t))), h.tick⟩) (p := p)
          (b := s :: (own ++ rest)) (o1.perm (by
            subst hpo
            simpa using (List.perm_middle (l₁ := p.toList) (l₂ := own ++ rest) (a := s)).symm))
        obtain ⟨h3, e3, o3, k3⟩ := freeP (h := h2) (p := some s) (b := own ++ rest) o2
        have kk : ∀ x ∈ own ++ rest, h3.mem x = upd h.mem c (some (.ptrs (nx :: t))) x := fun x hx => by
          rw [k3 x hx, k2 x (by simp only [List.mem_cons]; exact .inr hx)]
        have hm3 : h3.mem c = some (.ptrs (nx :: t)) := by rw [kk c (by simp [hc])]; simp
        obtain ⟨h4, e4, m4, o4, k4⟩ := ih f h3 nx own (ht.mono fun x hx => by
          rw [kk x (by simp [hx])]; exact upd_other _ _ (hne x (by simp [hx]))) (by omega) hm3 o3
        refine ⟨h4, by simp [freeSubs, M.bind, loadPtr_at (i := 0) hm rfl, loadPtr_at (i := 2) hs rfl, st, l0, e2, e3, e4], m4, o4, ?_⟩
        intro x hx hxc
        rw [k4 x hx hxc, kk x (by simp [hx])]
        exact upd_other _ _ hxc

/-! ## Invariants -/

/-- The blocks of a connection. -/
structure Conn (m : Mem) (c : Nat) (cb recv : Option Nat) (ns : List NSub) (bl : List Nat) : Prop where
  ex : ∃ head context mutex own, m c = some (.ptrs [head, recv, cb, some context, some mutex]) ∧ LL m head ns own ∧
    bl = own ++ (c :: context :: mutex :: recv.toList)

theorem Conn.mono {m m' : Mem} {c cb recv ns bl} (k : Conn m c cb recv ns bl) (hm : ∀ x ∈ bl, m' x = m x) :
    Conn m' c cb recv ns bl := by
  obtain ⟨head, context, mutex, own, h1, h2, rfl⟩ := k.ex
  exact ⟨head, context, mutex, own, (hm c (by simp)).trans h1, h2.mono fun x hx => hm x (by simp [hx]), rfl⟩

/-- What the specification says about the state. -/
structure Agree (ns : List NSub) (w : Relay) (v : Spec.View) : Prop where
  subs : ns = v.subs.map Nostr.Relay.Props.named
  state : w.state = v.state
  cb : w.msgCb = v.cb
  rx : w.rx = v.rx
  log : w.log = v.log

/-- A connected relay, in the memory `h0` before the connection, with further blocks `extra`. -/
structure Good (A : Alloc) (h0 : Mem) (c : Nat) (recv : Option Nat) (extra : List Nat) (h : Heap) (w : Relay) (v : Spec.View) : Prop where
  handle : w.handle = some c
  ex : ∃ ns bl, Conn h.mem c w.msgCb recv ns bl ∧ Owned h0 h.mem (bl ++ extra) ∧ ns.length ≤ w.n ∧
    ((∃ s ∈ ns, s.id = none) → Refused A h0) ∧ (Refused A h0 ∨ Agree ns w v)

/-- What does not change while messages are handled. -/
structure Same (extra : List Nat) (h : Heap) (w : Relay) (h' : Heap) (w' : Relay) : Prop where
  keep : ∀ x ∈ extra, h'.mem x = h.mem x
  rx : w'.rx = w.rx
  self : w'.self = w.self
  url : w'.url = w.url

theorem Same.refl (extra h w) : Same extra h w h w := ⟨fun _ _ => rfl, rfl, rfl, rfl⟩
theorem Same.trans {extra h w h1 w1 h2 w2} (a : Same extra h w h1 w1) (b : Same extra h1 w1 h2 w2) : Same extra h w h2 w2 :=
  ⟨fun x hx => (b.keep x hx).trans (a.keep x hx), b.rx.trans a.rx, b.self.trans a.self, b.url.trans a.url⟩

/-- Undefined behaviour only when memory runs out; else the blocks are those of the connection again, and the state is as
specified. -/
structure Sim (A : Alloc) (h0 : Mem) (c : Nat) (recv : Option Nat) (extra : List Nat) (h : Heap) (w : Relay) (v' : Spec.View)
    (r : Option (Relay × Heap)) : Prop where
  ub : r = none → Refused A h0
  ok : ∀ w' h', r = some (w', h') → Good A h0 c recv extra h' w' v' ∧ Same extra h w h' w'

theorem Sim.done {A h0 c recv extra h w v' w' h'} (g : Good A h0 c recv extra h' w' v') (s : Same extra h w h' w') :
    Sim A h0 c recv extra h w v' (some (w', h')) :=
  ⟨by simp, fun _ _ e => by simp only [Option.some.injEq, Prod.mk.injEq] at e; obtain ⟨rfl, rfl⟩ := e; exact ⟨g, s⟩⟩

theorem Sim.lost {A h0 c recv extra h w v'} (f : Refused A h0) : Sim A h0 c recv extra h w v' none := ⟨fun _ => f, by simp⟩

theorem Sim.bind {A h0 c recv extra h w v1 v2} {m : M Relay} {f : Relay → M Relay} (s : Sim A h0 c recv extra h w v1 (m h))
    (t : ∀ w1 h1, Good A h0 c recv extra h1 w1 v1 → Same extra h w h1 w1 → Sim A h0 c recv extra h1 w1 v2 (f w1 h1)) :
    Sim A h0 c recv extra h w v2 (M.bind m f h) := by
  unfold M.bind
  cases hm : m h with
  | none => exact .lost (s.ub hm)
  | some r =>
    obtain ⟨g, k⟩ := s.ok r.1 r.2 hm
    have := t r.1 r.2 g k
    exact ⟨this.ub, fun w' h' e => ⟨(this.ok w' h' e).1, k.trans (this.ok w' h' e).2⟩⟩

/-- When memory has run out the specification says nothing. -/
theorem Good.any {A h0 c recv extra h w v v'} (g : Good A h0 c recv extra h w v) (f : Refused A h0) : Good A h0 c recv extra h w v' := by
  obtain ⟨h1, ns, bl, k, o, n, u, -⟩ := g
  exact ⟨h1, ns, bl, k, o, n, u, .inl f⟩

/-- A temporary block. -/
theorem Good.push {A : Alloc} (hA : Fresh A) {h0 c recv extra h w v} (g : Good A h0 c recv extra h w v) (o : Obj) :
    (∃ h', alloc A o h = some (none, h') ∧ h'.mem = h.mem ∧ Refused A h0) ∨
    ∃ p h', alloc A o h = some (some p, h') ∧ Good A h0 c recv (p :: extra) h' w v ∧ Same extra h w h' w := by
  obtain ⟨h1, ns, bl, k, ow, n, u, a⟩ := g
  rcases allocP hA ow o with h | ⟨p, h', e, -, o', kp⟩
  · exact .inl h
  · exact .inr ⟨p, h', e, ⟨h1, ns, bl, k.mono fun x hx => kp x (by simp [hx]),
      o'.perm (List.perm_middle (l₁ := bl) (l₂ := extra)).symm, n, u, a⟩, ⟨fun x hx => kp x (by simp [hx]), rfl, rfl, rfl⟩⟩

theorem Good.pop {A : Alloc} {h0 c recv extra h w v p} (g : Good A h0 c recv (p :: extra) h w v) :
    ∃ h', free (some p) h = some ((), h') ∧ Good A h0 c recv extra h' w v ∧ Same extra h w h' w := by
  obtain ⟨h1, ns, bl, k, ow, n, u, a⟩ := g
  obtain ⟨h', e, o', kp⟩ := freeP (p := some p) (b := bl ++ extra) (ow.perm (List.perm_middle (l₁ := bl) (l₂ := extra)))
  exact ⟨h', e, ⟨h1, ns, bl, k.mono fun x hx => kp x (by simp [hx]), o', n, u, a⟩, ⟨fun x hx => kp x (by simp [hx]), rfl, rfl, rfl⟩⟩

theorem Good.mem {A : Alloc} {h0 c recv extra h h' w v} (g : Good A h0 c recv extra h w v) (e : h'.mem = h.mem) :
    Good A h0 c recv extra h' w v := by
  obtain ⟨h1, ns, bl, k, ow, n, u, a⟩ := g
  exact ⟨h1, ns, bl, by rw [e]; exact k, by rw [e]; exact ow, n, u, a⟩

theorem Same.mem {extra h w h'} (e : h'.mem = h.mem) : Same extra h w h' w := ⟨fun x _ => by rw [e], rfl, rfl, rfl⟩

theorem Good.perm {A : Alloc} {h0 c recv extra extra' h w v} (g : Good A h0 c recv extra h w v) (e : extra.Perm extra') :
    Good A h0 c recv extra' h w v := by
  obtain ⟨h1, ns, bl, k, ow, n, u, a⟩ := g
  exact ⟨h1, ns, bl, k, ow.perm (List.Perm.append_left bl e), n, u, a⟩

theorem Same.tail {p extra h w h' w'} (s : Same (p :: extra) h w h' w') : Same extra h w h' w' :=
  ⟨fun x hx => s.keep x (by simp [hx]), s.rx, s.self, s.url⟩

/-- A block that lives as long as a computation. -/
theorem Sim.scoped {A h0 c recv extra p h w h1 v'} {m : M Relay} (s : Sim A h0 c recv (p :: extra) h1 w v' (m h1))
    (k : Same extra h w h1 w) :
    Sim A h0 c recv extra h w v' (M.bind m (fun w => M.bind (free (some p)) fun _ => M.pure w) h1) := by
  unfold M.bind
  cases hm : m h1 with
  | none => exact .lost (s.ub hm)
  | some r =>
    obtain ⟨g, k'⟩ := s.ok r.1 r.2 hm
    obtain ⟨h2, e2, g2, k2⟩ := g.pop
    simp only [Option.bind_some, e2, M.pure]
    exact .done g2 (k.trans (k'.tail.trans k2))

theorem removeF_sub {id : Bytes} {ns ns' : List NSub} (hns : removeF id ns = .ok ns') :
    (∀ x, x ∈ ns' → x ∈ ns) ∧ ns'.length ≤ ns.length := by
  induction ns generalizing ns' with
  | nil => simp [removeF] at hns; subst hns; simp
  | cons y ys ih =>
    unfold removeF at hns
    split at hns
    · simp at hns
    · split at hns
      · simp at hns; subst hns; exact ⟨fun x hx => by simp [hx], by simp⟩
      · cases hr : removeF id ys with
        | ub => simp [hr] at hns
        | err e => simp [hr] at hns
        | ok l =>
          simp [hr] at hns; subst hns
          obtain ⟨h1, h2⟩ := ih hr
          refine ⟨fun x hx => ?_, by simpa using h2⟩
          rcases List.mem_cons.1 hx with rfl | hx
          · simp
          · simp [h1 x hx]

/-! ## Calls -/

variable {A : Alloc} (hA : Fresh A) {h0 : Mem} {c : Nat} {recv : Option Nat} {extra : List Nat} {h : Heap} {w : Relay} {v : Spec.View}

include hA

theorem transmit_ok (g : Good A h0 c recv extra h w v) {t : Res Bytes} {x : Bytes} (ht : t = .ok x) :
    ∃ h', transmit A t h = some ((), h') ∧ Good A h0 c recv extra h' w v ∧ Same extra h w h' w := by
  subst ht
  rcases g.push hA blob with ⟨h1, e1, m1, f1⟩ | ⟨p, h1, e1, g1, k1⟩
  · exact ⟨h1, by simp [transmit, M.bind, e1, M.pure], g.mem m1, .mem m1⟩
  · rcases g1.push hA blob with ⟨h2, e2, m2, f2⟩ | ⟨q, h2, e2, g2, k2⟩
    · obtain ⟨h3, e3, g3, k3⟩ := (g1.mem m2).pop
      exact ⟨h3, by simp [transmit, M.bind, e1, e2, e3], g3, k1.trans ((Same.mem m2).trans k3)⟩
    · obtain ⟨h3, e3, g3, k3⟩ := (g2.perm (List.Perm.swap p q extra)).pop
      obtain ⟨h4, e4, g4, k4⟩ := g3.pop
      exact ⟨h4, by simp [transmit, M.bind, e1, e2, e3, e4], g4, k1.trans (k2.tail.trans (k3.tail.trans k4))⟩

theorem reqText_ok (id filters : Bytes) : ∃ x, reqText id filters = .ok x := by
  unfold reqText
  simp only
  rw [if_neg (by simp; omega)]
  exact ⟨_, rfl⟩

theorem closeText_ok (id : Bytes) : ∃ x, closeText id = .ok x := by
  unfold closeText
  simp only
  rw [if_neg (by simp)]
  exact ⟨_, rfl⟩

theorem eventText_ok (j : Bytes) : ∃ x, eventText j = .ok x := by
  unfold eventText
  simp only
  rw [if_neg (by simp)]
  exact ⟨_, rfl⟩

theorem setCallback_ok (g : Good A h0 c recv extra h w v) (cb : Option Nat) :
    Sim A h0 c recv extra h w { v with cb := cb } (setCallback cb w h) := by
  obtain ⟨h1, ns, bl, k, ow, n, u, a⟩ := g
  obtain ⟨head, context, mutex, own, hc, hl, rfl⟩ := k.ex
  have hcn : c ∉ own ∧ c ∉ extra := by
    have := ow.nodup
    grind
  simp only [setCallback, h1, M.bind, storePtr_at (i := 2) hc (by simp), Option.bind_some, M.pure]
  refine .done ⟨rfl, ns, _, ⟨head, context, mutex, own, by simp, hl.mono fun x hx => upd_other _ _ (by grind), rfl⟩, ow.write (by simp) _, n, u, ?_⟩
    ⟨fun x hx => upd_other _ _ (by grind), rfl, rfl, rfl⟩
  exact a.imp_right fun a => ⟨a.subs, a.state, rfl, a.rx, a.log⟩

theorem link_ok (g : Good A h0 c recv (s :: extra) h w v) (id : Bytes) (cb : Option Nat) (hs : h.mem s = some node) :
    ∃ h', link A id cb c s h = some ((), h') ∧ Good A h0 c recv extra h' { w with n := w.n + 1 } { v with subs := ⟨id, cb⟩ :: v.subs } ∧
      Same extra h w h' w := by
  obtain ⟨h1, ns, bl, k, ow, n, u, a⟩ := g
  have key : ∀ (p : Option Nat) (name : Option Bytes) (h2 : Heap), (name = none → Refused A h0) → (Refused A h0 ∨ name = some id) →
      (∀ x ∈ bl ++ (s :: extra), h2.mem x = h.mem x) → OptS h2.mem p name p.toList → Owned h0 h2.mem (p.toList ++ (bl ++ (s :: extra))) →
      ∃ h', M.bind (storePtr s 0 p) (fun _ => M.bind (storePtr s 1 cb) fun _ => M.bind (loadPtr (some c) 0) fun head =>
          M.bind (storePtr s 2 head) fun _ => storePtr c 0 (some s)) h2 = some ((), h') ∧
        Good A h0 c recv extra h' { w with n := w.n + 1 } { v with subs := ⟨id, cb⟩ :: v.subs } ∧ Same extra h w h' w := by
    intro p name h2 hr hid kp hp o2
    obtain ⟨head, context, mutex, own, hc, hl, rfl⟩ := (k.mono fun x hx => kp x (by simp [hx])).ex
    have hs2 : h2.mem s = some (.ptrs [none, none, none]) := (kp s (by simp)).trans hs
    have hnd := o2.nodup
    have hsc : s ≠ c := by grind
    have hsn : s ∉ own ∧ s ∉ extra ∧ s ∉ p.toList := by grind
    have hcn : c ∉ own ∧ c ∉ extra ∧ c ∉ p.toList := by grind
    have e1 := storePtr_at (h := h2) (q := p) (i := 0) hs2 (by simp)
    have e2 := storePtr_at (h := ⟨upd h2.mem s (some (.ptrs [p, none, none])), h2.tick⟩) (q := cb) (a := s) (i := 1) (l := [p, none, none]) (by simp) (by simp)
    have e3 := loadPtr_at (h := ⟨upd (upd h2.mem s (some (.ptrs [p, none, none]))) s (some (.ptrs [p, cb, none])), h2.tick⟩) (a := c) (i := 0)
      (l := [head, recv, w.msgCb, some context, some mutex]) (q := head) (by simp [upd, Ne.symm hsc, hc]) rfl
    have e4 := storePtr_at (h := ⟨upd (upd h2.mem s (some (.ptrs [p, none, none]))) s (some (.ptrs [p, cb, none])), h2.tick⟩) (q := head) (a := s) (i := 2) (l := [p, cb, none]) (by simp) (by simp)
    have e5 := storePtr_at (h := ⟨upd (upd (upd h2.mem s (some (.ptrs [p, none, none]))) s (some (.ptrs [p, cb, none]))) s (some (.ptrs [p, cb, head])), h2.tick⟩)
      (a := c) (i := 0) (q := some s) (l := [head, recv, w.msgCb, some context, some mutex]) (by simp [upd, Ne.symm hsc, hc]) (by simp)
    simp only [List.set] at e1 e2 e4 e5
    simp only [M.bind, e1, e2, e3, e4, e5, Option.bind_some]
    have ot : ∀ x, x ≠ s → x ≠ c → (upd (upd (upd (upd h2.mem s (some (.ptrs [p, none, none]))) s (some (.ptrs [p, cb, none]))) s
        (some (.ptrs [p, cb, head]))) c (some (.ptrs [some s, recv, w.msgCb, some context, some mutex]))) x = h2.mem x := fun x h1 h2 => by
      rw [upd_other _ _ h2, upd_other _ _ h1, upd_other _ _ h1, upd_other _ _ h1]
    refine ⟨_, rfl, ⟨h1, ⟨name, cb⟩ :: ns, _, ⟨some s, context, mutex, s :: (p.toList ++ own), by simp,
      .cons (p := p) (cb := cb) (nx := head) (by simp [upd, hsc]) (hp.mono fun x hx => ot x (by grind) (by grind))
        (hl.mono fun x hx => ot x (by grind) (by grind)), rfl⟩, ?_, ?_, ?_, ?_⟩, ⟨fun x hx => ?_, rfl, rfl, rfl⟩⟩
    · refine Owned.perm ((((o2.write (c := s) (by simp) _).write (c := s) (by simp) _).write (c := s) (by simp) _).write (c := c) (by simp) _) ?_
      simpa using List.perm_middle (l₁ := p.toList ++ (own ++ (c :: context :: mutex :: recv.toList))) (l₂ := extra) (a := s)
    · simp; omega
    · rintro ⟨x, hx, hx'⟩
      rcases List.mem_cons.1 hx with rfl | hx
      · exact hr hx'
      · exact u ⟨x, hx, hx'⟩
    · rcases hid with f | rfl
      · exact .inl f
      · exact a.imp_right fun a => ⟨by rw [a.subs]; rfl, a.state, a.cb, a.rx, a.log⟩
    · rw [← kp x (by simp [hx])]
      exact ot x (by grind) (by grind)
  rcases allocP hA ow (.str id) with ⟨h2, e2, m2, f2⟩ | ⟨p, h2, e2, m2, o2, k2⟩
  · simp only [link, M.bind, e2, Option.bind_some]
    exact key none none h2 (fun _ => f2) (.inl f2) (fun x _ => by rw [m2]) .null (by rw [m2]; exact ow)
  · simp only [link, M.bind, e2, Option.bind_some]
    exact key (some p) (some id) h2 (by simp) (.inr rfl) k2 (.str m2) o2

theorem subscribe_ok (g : Good A h0 c recv extra h w v) (id filters : Bytes) (cb : Option Nat) :
    Sim A h0 c recv extra h w (Spec.act (.subscribe id filters cb) v) (subscribe A id filters cb w h) := by
  have hst : Refused A h0 ∨ w.state = v.state := by
    obtain ⟨-, ns, bl, -, -, -, -, a⟩ := g
    exact a.imp_right fun a => a.state
  unfold subscribe
  by_cases h1 : w.state ≠ .connected ∨ validSubId id = false
  · rw [if_pos h1]
    refine .done ?_ (.refl _ _ _)
    rcases hst with f | hst
    · exact g.any f
    · rcases h1 with h1 | h1
      · simp only [Spec.act, ← hst, if_neg h1]; exact g
      · simp only [Spec.act, Nostr.Relay.subscribe, h1]
        split <;> simpa using g
  · rw [if_neg h1]
    simp only [not_or, ne_eq, Classical.not_not, Bool.not_eq_false] at h1
    simp only [g.handle]
    rcases g.push hA node with ⟨h2, e2, m2, f2⟩ | ⟨s, h2, e2, g2, k2⟩
    · simp only [M.bind, e2, Option.bind_some, M.pure]
      exact .done ((g.mem m2).any f2) (.mem m2)
    · have hs2 : h2.mem s = some node := by
        unfold alloc at e2; split at e2 <;> simp at e2
        obtain ⟨rfl, rfl⟩ := e2; simp
      simp only [M.bind, e2, Option.bind_some]
      cases hp : parse filters with
      | none =>
        obtain ⟨h3, e3, g3, k3⟩ := g2.pop
        simp only [M.bind, e3, Option.bind_some, M.pure]
        refine .done ?_ (k2.trans k3)
        simp only [Spec.act, Nostr.Relay.subscribe, h1.2, hp]
        split <;> simpa using g3
      | some j =>
        simp only
        rcases g2.push hA blob with ⟨h3, e3, m3, f3⟩ | ⟨t, h3, e3, g3, k3⟩
        · obtain ⟨h4, e4, g4, k4⟩ := (g2.mem m3).pop
          simp only [M.bind, e3, e4, Option.bind_some, M.pure]
          exact .done (g4.any f3) (k2.trans ((Same.mem m3).trans k4))
        · obtain ⟨h4, e4, g4, k4⟩ := g3.pop
          obtain ⟨x, hx⟩ := reqText_ok hA id filters
          obtain ⟨h5, e5, g5, k5⟩ := link_ok hA g4 id cb (by rw [k4.keep s (by simp), k3.keep s (by simp), hs2])
          obtain ⟨h6, e6, g6, k6⟩ := transmit_ok hA g5 hx
          simp only [M.bind, e3, e4, e5, e6, Option.bind_some, M.pure]
          have kk := k2.trans (k3.tail.trans (k4.tail.trans k5))
          refine .done ?_ ⟨fun y hy => (k6.keep y hy).trans (kk.keep y hy), rfl, rfl, rfl⟩
          rw [← g.handle]
          rcases hst with f | hst
          · exact g6.any f
          · have e : Spec.act (.subscribe id filters cb) v = { v with subs := ⟨id, cb⟩ :: v.subs } := by
              simp [Spec.act, ← hst, h1.1, Nostr.Relay.subscribe, h1.2, hp, hx]
            rw [e]; exact g6

theorem unlink_good (g : Good A h0 c recv extra h w v) (id : Bytes) :
    (unlink id (w.n + 1) c 0 h = none ∧ Refused A h0) ∨
    ∃ h', unlink id (w.n + 1) c 0 h = some ((), h') ∧
      Good A h0 c recv extra h' w { v with subs := Nostr.Relay.removeSub id v.subs } ∧ Same extra h w h' w := by
  obtain ⟨h1, ns, bl, k, ow, n, u, a⟩ := g
  obtain ⟨head, context, mutex, own, hc, hl, rfl⟩ := k.ex
  have := unlink_ok id (h0 := h0) hl (w.n + 1) c 0 _ (c :: context :: mutex :: recv.toList ++ extra) (by omega) hc rfl
    (by simpa using ow) (by simp)
  have hcn : c ∉ extra := by
    have := ow.nodup
    grind
  split at this
  · rename_i ns' hns
    obtain ⟨h', p', own', e1, e2, e3, e4, e5⟩ := this
    obtain ⟨hmem, hlen⟩ := removeF_sub hns
    refine .inr ⟨h', e1, ⟨h1, ns', _, ⟨p', context, mutex, own', e2, e3, rfl⟩, by simpa using e4, by omega,
      fun ⟨x, hx, hx'⟩ => u ⟨x, hmem x hx, hx'⟩, a.imp_right fun a => ⟨?_, a.state, a.cb, a.rx, a.log⟩⟩, ⟨fun x hx => ?_, rfl, rfl, rfl⟩⟩
    · rw [a.subs, Nostr.Relay.Props.removeF_named] at hns
      simpa using hns.symm
    · exact e5 x (by simp [hx]) (by rintro rfl; exact hcn hx)
  · exact .inl ⟨this.1, u this.2⟩

theorem unsubscribe_ok (g : Good A h0 c recv extra h w v) (id : Bytes) :
    Sim A h0 c recv extra h w (Spec.act (.unsubscribe id) v) (unsubscribe A id w h) := by
  have hst : Refused A h0 ∨ w.state = v.state := by
    obtain ⟨-, ns, bl, -, -, -, -, a⟩ := g
    exact a.imp_right fun a => a.state
  unfold unsubscribe
  by_cases h1 : w.state ≠ .connected ∨ validSubId id = false
  · rw [if_pos h1]
    refine .done ?_ (.refl _ _ _)
    rcases hst with f | hst
    · exact g.any f
    · rcases h1 with h1 | h1
      · simp only [Spec.act, ← hst, if_neg h1]; exact g
      · simp only [Spec.act, Nostr.Relay.unsubscribe, h1]
        split <;> simpa using g
  · rw [if_neg h1]
    simp only [not_or, ne_eq, Classical.not_not, Bool.not_eq_false] at h1
    simp only [g.handle]
    rcases unlink_good hA g id with ⟨e, f⟩ | ⟨h2, e2, g2, k2⟩
    · simp only [M.bind, e, Option.bind_none]; exact .lost f
    · obtain ⟨x, hx⟩ := closeText_ok hA id
      obtain ⟨h6, e6, g6, k6⟩ := transmit_ok hA g2 hx
      simp only [M.bind, e2, e6, Option.bind_some, M.pure]
      refine .done ?_ (k2.trans k6)
      rcases hst with f | hst
      · exact g6.any f
      · have e : Spec.act (.unsubscribe id) v = { v with subs := Nostr.Relay.removeSub id v.subs } := by
          simp [Spec.act, ← hst, h1.1, Nostr.Relay.unsubscribe, h1.2, hx]
        rw [e]; exact g6

theorem send_ok (g : Good A h0 c recv extra h w v) (td fr) (e : Event) :
    Sim A h0 c recv extra h w v (send A td fr e w h) := by
  unfold send
  split
  · exact .done g (.refl _ _ _)
  · rcases g.push hA blob with ⟨h1, e1, m1, f1⟩ | ⟨p, h1, e1, g1, k1⟩
    · simp only [M.bind, e1, Option.bind_some, M.pure]
      exact .done (g.mem m1) (.mem m1)
    · rcases g1.push hA blob with ⟨h2, e2, m2, f2⟩ | ⟨q, h2, e2, g2, k2⟩
      · obtain ⟨h3, e3, g3, k3⟩ := (g1.mem m2).pop
        simp only [M.bind, e1, e2, e3, Option.bind_some, M.pure]
        exact .done g3 (k1.trans ((Same.mem m2).trans k3))
      · obtain ⟨h3, e3, g3, k3⟩ := (g2.perm (List.Perm.swap p q extra)).pop
        have kk3 := k1.trans (k2.tail.trans k3.tail)
        have hc3 : h3.mem c ≠ none := by
          obtain ⟨-, ns, bl, k, ow, -⟩ := g3
          obtain ⟨head, context, mutex, own, hc, hl, rfl⟩ := k.ex
          simp [hc]
        obtain ⟨o, eo⟩ := load_at hc3
        simp only [M.bind, e1, e2, e3, Option.bind_some, g.handle, eo]
        rcases g3.push hA blob with ⟨h4, e4, m4, f4⟩ | ⟨m, h4, e4, g4, k4⟩
        · obtain ⟨h5, e5, g5, k5⟩ := (g3.mem m4).pop
          simp only [M.bind, e4, e5, Option.bind_some, M.pure]
          exact .done g5 (kk3.trans ((Same.mem m4).trans k5))
        · obtain ⟨x, hx⟩ := eventText_ok hA (print true 0 (toTree td fr e))
          simp only [e4, Option.bind_some, toJson, Res.bind_ok, hx]
          obtain ⟨h5, e5, g5, k5⟩ := (g4.perm (List.Perm.swap q m extra)).pop
          have kk5 := kk3.trans (k4.tail.trans k5.tail)
          rcases g5.push hA blob with ⟨h6, e6, m6, f6⟩ | ⟨b, h6, e6, g6, k6⟩
          · obtain ⟨h7, e7, g7, k7⟩ := (g5.mem m6).pop
            simp only [M.bind, e5, e6, e7, Option.bind_some, M.pure]
            exact .done g7 (kk5.trans ((Same.mem m6).trans k7))
          · obtain ⟨h7, e7, g7, k7⟩ := (g6.perm (List.Perm.swap m b extra)).pop
            obtain ⟨h8, e8, g8, k8⟩ := g7.pop
            simp only [M.bind, e5, e6, e7, e8, Option.bind_some, M.pure]
            exact .done g8 (kk5.trans (k6.tail.trans (k7.tail.trans k8)))

/-! ## Callbacks and messages -/

variable {E : Env}

omit hA in
/-- The calls of an application that stays connected. -/
theorem act_ok (hE : Fresh E.A) {a : Act} (ha : a ≠ .disconnect) (g : Good E.A h0 c recv extra h w v) :
    Sim E.A h0 c recv extra h w (Spec.act a v) (act E a w h) := by
  cases a with
  | subscribe id filters cb => exact subscribe_ok hE g id filters cb
  | unsubscribe id => exact unsubscribe_ok hE g id
  | send e => exact send_ok hE g _ _ e
  | setCallback cb => exact setCallback_ok hE g cb
  | disconnect => exact absurd rfl ha

omit hA in
theorem acts_ok (hE : Fresh E.A) (as : List Act) : ∀ {h w v}, (∀ a ∈ as, a ≠ .disconnect) → Good E.A h0 c recv extra h w v →
    Sim E.A h0 c recv extra h w (as.foldl (fun v a => Spec.act a v) v) (acts E as w h) := by
  induction as with
  | nil => intro h w v _ g; exact .done g (.refl _ _ _)
  | cons a as ih =>
    intro h w v ha g
    exact Sim.bind (act_ok hE (ha a (by simp)) g) fun w1 h1 g1 _ => ih (fun a h => ha a (by simp [h])) g1

omit hA in
theorem callback_ok (hE : Fresh E.A) (hs : ∀ log, .disconnect ∉ E.app log) (s : Seen) (g : Good E.A h0 c recv extra h w v) :
    Sim E.A h0 c recv extra h w (Spec.callback E.app s v) (callback E s w h) := by
  have g' : Good E.A h0 c recv extra h { w with log := w.log ++ [s] } { v with log := v.log ++ [s] } := by
    obtain ⟨h1, ns, bl, k, ow, n, u, a⟩ := g
    exact ⟨h1, ns, bl, k, ow, n, u, a.imp_right fun a => ⟨a.subs, a.state, a.cb, a.rx, by simp [a.log]⟩⟩
  have hl : Refused E.A h0 ∨ w.log = v.log := by
    obtain ⟨-, ns, bl, -, -, -, -, a⟩ := g
    exact a.imp_right fun a => a.log
  have key := acts_ok hE (E.app (w.log ++ [s])) (fun a ha e => hs _ (e ▸ ha)) g'
  unfold callback Spec.callback
  refine ⟨key.ub, fun w' h' e => ?_⟩
  obtain ⟨k1, k2⟩ := key.ok w' h' e
  refine ⟨?_, ⟨k2.keep, k2.rx, k2.self, k2.url⟩⟩
  rcases hl with f | hl
  · exact k1.any f
  · rw [← hl] at k1 ⊢; exact k1

omit hA in
theorem notify_ok (hE : Fresh E.A) (hs : ∀ log, .disconnect ∉ E.app log) (t : Bytes) (root : Json)
    (g : Good E.A h0 c recv extra h w v) :
    Sim E.A h0 c recv extra h w
      ((Nostr.Relay.notify v.cb.isSome E.r t root).foldl (fun v c => Spec.callback E.app (.call c) v) v) (notify E c t root w h) := by
  have hcb : Refused E.A h0 ∨ w.msgCb = v.cb := by
    obtain ⟨-, ns, bl, -, -, -, -, a⟩ := g
    exact a.imp_right fun a => a.cb
  have hl : loadPtr (some c) 2 h = some (w.msgCb, h) := by
    obtain ⟨-, ns, bl, k, -⟩ := g
    obtain ⟨head, context, mutex, own, hc, -⟩ := k.ex
    exact loadPtr_at hc rfl
  unfold notify
  rw [bind_at hl]
  cases hw : w.msgCb with
  | none =>
    refine .done ?_ (.refl _ _ _)
    rcases hcb with f | hcb
    · exact g.any f
    · rw [← hcb, hw]; exact g
  | some q =>
    simp only
    rcases g.push hE blob with ⟨h1, e1, m1, f1⟩ | ⟨p, h1, e1, g1, k1⟩
    · rw [bind_at e1]
      exact .done ((g.mem m1).any f1) (.mem m1)
    · rw [bind_at e1]
      have := Sim.scoped (callback_ok hE hs (.call (.message t (print true 0 (mapNum E.r root)))) g1) k1
      rcases hcb with f | hcb
      · exact ⟨fun _ => f, fun w' h' e => ⟨((this.ok w' h' e).1).any f, (this.ok w' h' e).2⟩⟩
      · rw [← hcb, hw]; exact this

omit hA in
/-- `nostr_event_destroy` leaves the other blocks as they are. -/
theorem destroy_keep {h0 : Mem} {h : Heap} {e : HEv} {extra} (d : Owned h0 h.mem (Ev.Props.blocks e ++ extra)) :
    ∃ h', Ev.destroy e h = some ((), h') ∧ Owned h0 h'.mem extra ∧ ∀ x ∈ extra, h'.mem x = h.mem x := by
  unfold Ev.destroy
  simp only [M.bind]
  have o : Owned h0 h.mem (e.content.toList ++ (e.memory :: (e.arena :: (e.tags.toList ++ (e.self :: extra))))) := by
    simpa [Ev.Props.blocks] using d
  obtain ⟨h1, e1, o1, k1⟩ := freeP o
  obtain ⟨h2, e2, o2, k2⟩ := freeP (p := some e.memory) o1
  obtain ⟨h3, e3, o3, k3⟩ := freeP (p := some e.arena) o2
  obtain ⟨h4, e4, o4, k4⟩ := freeP o3
  obtain ⟨h5, e5, o5, k5⟩ := freeP (p := some e.self) o4
  refine ⟨h5, by simp only [e1, e2, e3, e4, e5, Option.bind_some], o5, fun x hx => ?_⟩
  rw [k5 x hx, k4 x (by simp [hx]), k3 x (by simp [hx]), k2 x (by simp [hx]), k1 x (by simp [hx])]

omit hA in
theorem Good.popEv {e : HEv} (g : Good A h0 c recv (Ev.Props.blocks e ++ extra) h w v) :
    ∃ h', Ev.destroy e h = some ((), h') ∧ Good A h0 c recv extra h' w v ∧ Same extra h w h' w := by
  obtain ⟨h1, ns, bl, k, ow, n, u, a⟩ := g
  obtain ⟨h', e', o', kp⟩ := destroy_keep (e := e) (extra := bl ++ extra) (ow.perm (List.perm_append_comm_assoc _ _ _))
  exact ⟨h', e', ⟨h1, ns, bl, k.mono fun x hx => kp x (by simp [hx]), o', n, u, a⟩, ⟨fun x hx => kp x (by simp [hx]), rfl, rfl, rfl⟩⟩

omit hA in
theorem Sim.scopedEv {e : HEv} {h1 v'} {m : M Relay} (s : Sim A h0 c recv (Ev.Props.blocks e ++ extra) h1 w v' (m h1))
    (k : Same extra h w h1 w) :
    Sim A h0 c recv extra h w v' (M.bind m (fun w => M.bind (Ev.destroy e) fun _ => M.pure w) h1) := by
  cases hm : m h1 with
  | none => unfold M.bind; rw [hm]; exact .lost (s.ub hm)
  | some r =>
    obtain ⟨g, k'⟩ := s.ok r.1 r.2 hm
    obtain ⟨h2, e2, g2, k2⟩ := g.popEv
    rw [bind_at hm, bind_at e2]
    exact .done g2 (k.trans (Same.trans ⟨fun x hx => k'.keep x (by simp [hx]), k'.rx, k'.self, k'.url⟩ k2))

omit hA in
/-- A result that only matters when memory has not run out. -/
theorem Sim.any {A h0 c recv extra h w v v' r} (s : Sim A h0 c recv extra h w v r) (f : Refused A h0) : Sim A h0 c recv extra h w v' r :=
  ⟨s.ub, fun w' h' e => ⟨((s.ok w' h' e).1).any f, (s.ok w' h' e).2⟩⟩

omit hA in
theorem toSub_ok (hE : Fresh E.A) (hs : ∀ log, .disconnect ∉ E.app log) {s : Nat} {q nx : Option Nat} {k : Option Nat} (e : Event)
    (g : Good E.A h0 c recv extra h w v) (hn : h.mem s = some (.ptrs [q, k, nx])) :
    Sim E.A h0 c recv extra h w
      ((match k with | some k => [Call.event k e] | none => []).foldl (fun v c => Spec.callback E.app (.call c) v) v) (toSub E s e w h) := by
  unfold toSub
  simp only [M.bind, loadPtr_at (i := 1) hn rfl, Option.bind_some]
  cases k with
  | none => exact .done g (.refl _ _ _)
  | some k => exact callback_ok hE hs _ g

omit hA in
theorem deliver_ok (hE : Fresh E.A) (hs : ∀ log, .disconnect ∉ E.app log) (id : Bytes) (ev : Json)
    (g : Good E.A h0 c recv extra h w v) :
    Sim E.A h0 c recv extra h w
      ((Nostr.Relay.deliver E.P (.cjson E.td E.fr) E.cfg E.r v.subs id ev).foldl (fun v c => Spec.callback E.app (.call c) v) v)
      (deliver E c id ev w h) := by
  obtain ⟨hw, ns, bl, k, ow, n, u, a⟩ := g
  have g : Good E.A h0 c recv extra h w v := ⟨hw, ns, bl, k, ow, n, u, a⟩
  obtain ⟨head, context, mutex, own, hc, hl, rfl⟩ := k.ex
  have hsr := search_ok id hl (w.n + 1) (by omega)
  unfold deliver
  rw [bind_at (loadPtr_at (i := 0) hc rfl)]
  split at hsr
  · rename_i hf
    rw [bind_at hsr]
    refine .done ?_ (.refl _ _ _)
    rcases a with f | a
    · exact g.any f
    · rw [a.subs, Nostr.Relay.Props.findF_named] at hf
      have hf' : v.subs.find? (fun s => decide (s.id = id)) = none := by simpa using hf
      simp only [Nostr.Relay.deliver, hf']
      exact g
  · rename_i x hf
    obtain ⟨s, q, nx, hsr, hso, hsn⟩ := hsr
    rw [bind_at hsr]
    simp only
    rcases allocP hE ow blob with ⟨h1, e1, m1, f1⟩ | ⟨p, h1, e1, -, o1, kp1⟩
    · rw [bind_at e1]
      exact .done ((g.mem m1).any f1) (.mem m1)
    · rw [bind_at e1]
      simp only
      have g1 : Good E.A h0 c recv (p :: extra) h1 w v := ⟨hw, ns, _, k.mono fun x hx => kp1 x (List.mem_append_left _ hx),
        o1.perm (List.perm_middle (l₂ := extra)).symm, n, u, a⟩
      have s1 : Same extra h w h1 w := ⟨fun x hx => kp1 x (by simp [hx]), rfl, rfl, rfl⟩
      have hdl : Refused E.A h0 ∨ ∃ y, v.subs.find? (fun s => decide (s.id = id)) = some y ∧ y.cb = x.cb := by
        refine a.imp_right fun a => ?_
        rw [a.subs, Nostr.Relay.Props.findF_named] at hf
        simp only [Res.ok.injEq, Option.map_eq_some_iff] at hf
        obtain ⟨y, hy, rfl⟩ := hf
        exact ⟨y, hy, rfl⟩
      obtain ⟨r, h2, e2, x2⟩ := Ev.Props.C137_held hE E.P E.td E.fr E.cfg E.grow (print true 0 (mapNum E.r ev)) h1
      rw [bind_at e2]
      rcases x2 with ⟨er, hr, m2, hv⟩ | ⟨e, hr, hr2, hv, hh⟩
      · simp only [hr]
        obtain ⟨h3, e3, g3, k3⟩ := (g1.mem m2).pop
        rw [bind_at e3]
        refine .done ?_ (s1.trans ((Same.mem m2).trans k3))
        rcases hdl with f | ⟨y, hy, -⟩
        · exact g3.any f
        · rcases hv with hv | hv
          · simp only [Nostr.Relay.deliver, hy, hv]; exact g3
          · exact g3.any (hv.back o1.same)
      · simp only [hr, hr2]
        have oe := hh.own
        simp only [List.append_nil] at oe
        obtain ⟨o2, kp2⟩ := o1.extend oe.nodup oe.fresh oe.live oe.same
        have g2 : Good E.A h0 c recv (Ev.Props.blocks e ++ (p :: extra)) h2 w v := ⟨hw, ns, _,
          k.mono fun x hx => (kp2 x (by simp only [List.mem_append, List.mem_cons] at hx ⊢; grind)).trans (kp1 x (by simp only [List.mem_append, List.mem_cons] at hx ⊢; grind)),
          o2.perm (by
            refine List.Perm.trans ?_ (List.perm_append_comm_assoc _ _ _)
            exact List.Perm.append_left _ (List.perm_middle (l₂ := extra)).symm), n, u, a⟩
        have s2 : Same (p :: extra) h1 w h2 w := ⟨fun x hx => kp2 x (by
          simp only [List.mem_append, List.mem_cons] at hx ⊢; grind), rfl, rfl, rfl⟩
        have t := toSub_ok hE hs (k := x.cb) (q := q) (nx := nx) r.2.1 g2 (by
          rw [kp2 s (by simp [hso]), kp1 s (by simp [hso]), hsn])
        have t2 := Sim.scoped (Sim.scopedEv t (.refl _ _ _)) (s1.trans s2.tail)
        rcases hdl with f | ⟨y, hy, hyc⟩
        · exact t2.any f
        · simp only [Nostr.Relay.deliver, hy, hv, hyc]; exact t2
  · unfold M.bind; rw [hsr.1]; exact .lost (u hsr.2)

omit hA in
theorem body_ok (hE : Fresh E.A) (hs : ∀ log, .disconnect ∉ E.app log) (text : Bytes) {tree : Json} (hp : parse text = some tree)
    (g : Good E.A h0 c recv extra h w v) : Sim E.A h0 c recv extra h w (Spec.message E text v) (body E c tree w h) := by
  rcases Classical.em (∃ t j1 js, tree = .arr (.str t :: j1 :: js)) with ⟨t, j1, js, rfl⟩ | hne
  · unfold body Spec.message Nostr.Relay.dispatch
    rw [hp]
    simp only
    by_cases h1 : t = c!"EVENT" ∧ js ≠ []
    · rw [if_pos h1, if_pos h1]
      cases js with
      | nil => exact absurd rfl h1.2
      | cons ev js => cases j1 <;> first | exact deliver_ok hE hs _ _ g | exact .done g (.refl _ _ _)
    · rw [if_neg h1, if_neg h1]
      by_cases h2 : t = c!"CLOSED" ∧ js ≠ []
      · rw [if_pos h2, if_pos h2]
        cases j1 with
        | str id =>
          simp only
          rcases unlink_good hE g id with ⟨e, f⟩ | ⟨h2, e2, g2, k2⟩
          · unfold M.bind; rw [e]; exact .lost f
          · rw [bind_at e2]
            have := notify_ok hE hs t (.arr (.str t :: .str id :: js)) g2
            exact ⟨this.ub, fun w' h' e => ⟨(this.ok w' h' e).1, k2.trans (this.ok w' h' e).2⟩⟩
        | _ => exact notify_ok hE hs t _ g
      · rw [if_neg h2, if_neg h2]
        exact notify_ok hE hs t _ g
  · have e1 : body E c tree w = M.pure w := by
      unfold body; split
      · exact absurd ⟨_, _, _, rfl⟩ hne
      · rfl
    have e2 : Spec.message E text v = v := by
      unfold Spec.message Nostr.Relay.dispatch
      rw [hp]
      split
      · rename_i e; simp only [Option.some.injEq] at e; exact absurd ⟨_, _, _, e⟩ hne
      · rfl
    rw [e1, e2]
    exact .done g (.refl _ _ _)

omit hA in
theorem message_ok (hE : Fresh E.A) (hs : ∀ log, .disconnect ∉ E.app log) (text : Bytes)
    (g : Good E.A h0 c recv extra h w v) : Sim E.A h0 c recv extra h w (Spec.message E text v) (message E c text w h) := by
  unfold message
  cases hp : parse text with
  | none =>
    refine .done ?_ (.refl _ _ _)
    unfold Spec.message Nostr.Relay.dispatch
    rw [hp]
    exact g
  | some tree =>
    simp only
    rcases g.push hE blob with ⟨h1, e1, m1, f1⟩ | ⟨p, h1, e1, g1, k1⟩
    · rw [bind_at e1]
      exact .done ((g.mem m1).any f1) (.mem m1)
    · rw [bind_at e1]
      exact Sim.scoped (body_ok hE hs text hp g1) k1

omit hA in
theorem Good.buffer {b : Nat} (g : Good A h0 c (some b) extra h w v) : h.mem b ≠ none ∧ loadPtr (some c) 1 h = some (some b, h) := by
  obtain ⟨hw, ns, bl, k, ow, n, u, a⟩ := g
  obtain ⟨head, context, mutex, own, hc, hl, rfl⟩ := k.ex
  exact ⟨ow.live b (by simp), loadPtr_at hc rfl⟩

omit hA in
theorem messages_ok (hE : Fresh E.A) (hs : ∀ log, .disconnect ∉ E.app log) {b : Nat} (ts : List Bytes) : ∀ {h w v},
    Good E.A h0 c (some b) extra h w v →
    Sim E.A h0 c (some b) extra h w (ts.foldl (fun v t => Spec.message E t v) v) (messages E c b ts w h) := by
  induction ts with
  | nil => intro h w v g; exact .done g (.refl _ _ _)
  | cons t ts ih =>
    intro h w v g
    obtain ⟨o, eo⟩ := load_at g.buffer.1
    unfold messages
    rw [bind_at eo]
    refine Sim.bind (message_ok hE hs t g) fun w1 h1 g1 _ => ?_
    obtain ⟨o1, eo1⟩ := load_at g1.buffer.1
    rw [bind_at eo1]
    exact ih g1

/-! ## Arrivals -/

/-- The receive buffer is there when it has a size. -/
def RxOk (recv : Option Nat) (rx : Rx) : Prop := Nostr.Relay.Props.BufferOk rx ∧ (recv = none → rx.size = 0)

/-- The relay between two events, whatever the receive buffer's address. -/
def Up (A : Alloc) (h0 : Mem) (c : Nat) (extra : List Nat) (h : Heap) (w : Relay) (v : Spec.View) : Prop :=
  ∃ recv, Good A h0 c recv extra h w v ∧ RxOk recv w.rx

/-- Like `Sim`, for whole events. -/
structure Sim' (A : Alloc) (h0 : Mem) (c : Nat) (extra : List Nat) (h : Heap) (w : Relay) (v' : Spec.View)
    (r : Option (Relay × Heap)) : Prop where
  ub : r = none → Refused A h0
  ok : ∀ w' h', r = some (w', h') → Up A h0 c extra h' w' v' ∧ (∀ x ∈ extra, h'.mem x = h.mem x) ∧ w'.self = w.self ∧ w'.url = w.url

omit hA in
theorem Sim.up (hr : RxOk recv w.rx) {v' r} (s : Sim A h0 c recv extra h w v' r) : Sim' A h0 c extra h w v' r :=
  ⟨s.ub, fun w' h' e => by
    obtain ⟨g, k⟩ := s.ok w' h' e
    exact ⟨⟨recv, g, by rw [k.rx]; exact hr⟩, k.keep, k.self, k.url⟩⟩

omit hA in
theorem process_ok (hE : Fresh E.A) (hs : ∀ log, .disconnect ∉ E.app log) {b : Nat} {rx rx' : Rx} {chunk : Bytes} {ts : List Bytes}
    (g : Good E.A h0 c (some b) extra h w v) (ha : absorb rx chunk = .ok (rx', ts)) (hb : Nostr.Relay.Props.BufferOk rx') :
    Sim' E.A h0 c extra h w { ts.foldl (fun v t => Spec.message E t v) v with rx := rx' } (process E c b rx chunk w h) := by
  obtain ⟨o, eo⟩ := load_at g.buffer.1
  unfold process
  rw [bind_at eo, ha]
  have s := messages_ok hE hs ts g
  simp only
  cases hm : messages E c b ts w h with
  | none => unfold M.bind; rw [hm]; exact ⟨fun _ => s.ub hm, by simp⟩
  | some r =>
    obtain ⟨w1, h1⟩ := r
    obtain ⟨g1, k1⟩ := s.ok _ _ hm
    obtain ⟨hl, hp⟩ := g1.buffer
    obtain ⟨o1, eo1⟩ := load_at hl
    rw [bind_at hm, bind_at hp]
    simp only
    rw [bind_at eo1]
    refine ⟨by simp [M.pure], fun w' h' e => ?_⟩
    simp only [M.pure, Option.some.injEq, Prod.mk.injEq] at e
    obtain ⟨rfl, rfl⟩ := e
    refine ⟨⟨some b, ?_, hb, by simp⟩, k1.keep, k1.self, k1.url⟩
    obtain ⟨hw, ns, bl, k, ow, n, u, a⟩ := g1
    exact ⟨hw, ns, bl, k, ow, n, u, a.imp_right fun a => ⟨a.subs, a.state, a.cb, rfl, a.log⟩⟩

omit hA in
theorem arrive_ok (hE : Fresh E.A) (hs : ∀ log, .disconnect ∉ E.app log) (chunk : Bytes) (g : Up E.A h0 c extra h w v) :
    Sim' E.A h0 c extra h w (Spec.op E (.arrive chunk) v) (arrive E chunk w h) := by
  obtain ⟨recv, g, hb, hr⟩ := g
  have hrx : Refused E.A h0 ∨ w.rx = v.rx := by
    obtain ⟨-, ns, bl, -, -, -, -, a⟩ := g
    exact a.imp_right fun a => a.rx
  have hany : ∀ {v' r}, Sim' E.A h0 c extra h w v' r → (w.rx = v.rx → v' = Spec.op E (.arrive chunk) v) →
      Sim' E.A h0 c extra h w (Spec.op E (.arrive chunk) v) r := fun {v' r} s he => by
    rcases hrx with f | hrx
    · refine ⟨s.ub, fun w' h' e => ?_⟩
      obtain ⟨⟨q, g', k'⟩, k2⟩ := s.ok w' h' e
      exact ⟨⟨q, g'.any f, k'⟩, k2⟩
    · rw [← he hrx]; exact s
  have hsafe := Nostr.Relay.Props.receive_safe true hb chunk
  unfold arrive
  rw [g.handle]
  simp only
  by_cases h0 : chunk.length = 0
  · rw [if_pos h0]
    refine hany (Sim.up ⟨hb, hr⟩ (.done g (.refl _ _ _))) fun e => ?_
    simp [Spec.op, Nostr.Relay.receive, h0]
  · rw [if_neg h0]
    by_cases h1 : w.rx.buf.length + chunk.length ≥ w.rx.size
    · rw [if_pos h1]
      by_cases h2 : w.rx.buf.length + chunk.length + 1024 > maxBuffer
      · rw [if_pos h2]
        have hres : Nostr.Relay.receive true w.rx chunk = .ok (⟨[], w.rx.size⟩, []) := by
          unfold Nostr.Relay.receive; rw [if_neg h0, if_pos h1, if_pos h2]
        obtain ⟨st', ms, e1, e2, -⟩ := hsafe
        rw [hres] at e1
        simp only [Res.ok.injEq, Prod.mk.injEq] at e1
        obtain ⟨rfl, rfl⟩ := e1
        refine hany (v' := { v with rx := ⟨[], w.rx.size⟩ }) ?_ fun e => ?_
        · refine ⟨by simp [M.pure], fun w' h' e => ?_⟩
          simp only [M.pure, Option.some.injEq, Prod.mk.injEq] at e
          obtain ⟨rfl, rfl⟩ := e
          refine ⟨⟨recv, ?_, e2, hr⟩, fun _ _ => rfl, rfl, rfl⟩
          obtain ⟨hw, ns, bl, k, ow, n, u, a⟩ := g
          exact ⟨rfl, ns, bl, k, ow, n, u, a.imp_right fun a => ⟨a.subs, a.state, a.cb, rfl, a.log⟩⟩
        · simp only [Spec.op]; rw [← e, hres]; rfl
      · rw [if_neg h2]
        have hres : Nostr.Relay.receive true w.rx chunk = absorb ⟨w.rx.buf, w.rx.buf.length + chunk.length + 1024⟩ chunk := by
          unfold Nostr.Relay.receive; rw [if_neg h0, if_pos h1, if_neg h2]; rfl
        obtain ⟨st', ms, e1, e2, -⟩ := hsafe
        have e1' := e1
        rw [hres] at e1
        obtain ⟨hw, ns, bl, k, ow, n, u, a⟩ := g
        have g : Good E.A _ c recv extra h w v := ⟨hw, ns, bl, k, ow, n, u, a⟩
        obtain ⟨head, context, mutex, own, hc, hl, rfl⟩ := k.ex
        rw [bind_at (loadPtr_at (i := 1) hc rfl)]
        rcases Ev.Props.resizeP hE (p := recv) (b := own ++ (c :: context :: mutex :: extra)) (ow.perm (by
            have h1 := List.perm_append_comm_assoc (own ++ [c, context, mutex]) recv.toList extra
            simpa using h1)) with ⟨h3, e3, m3, f3⟩ | ⟨b, h3, e3, o3, k3⟩
        · rw [bind_at e3]
          refine ⟨by simp [M.pure], fun w' h' e => ?_⟩
          simp only [M.pure, Option.some.injEq, Prod.mk.injEq] at e
          obtain ⟨rfl, rfl⟩ := e
          exact ⟨⟨recv, (g.mem m3).any f3, hb, hr⟩, fun x _ => by rw [m3], rfl, rfl⟩
        · rw [bind_at e3]
          simp only
          have hc3 : h3.mem c = _ := (k3 c (by simp)).trans hc
          have st := storePtr_at (i := 1) (q := some b) hc3 (by simp)
          rw [bind_at st]
          have hnd := o3.nodup
          have hcn : c ∉ own ∧ c ∉ extra := by grind
          have g4 : Good E.A _ c (some b) extra ⟨upd h3.mem c (some (.ptrs ([head, recv, w.msgCb, some context, some mutex].set 1 (some b)))), h3.tick⟩ w v :=
            ⟨hw, ns, _, ⟨head, context, mutex, own, by simp, hl.mono fun x hx => by
              rw [show (Heap.mk (upd h3.mem c _) h3.tick).mem x = h3.mem x from upd_other _ _ (by grind)]
              exact k3 x (by simp [hx]), rfl⟩,
            (o3.write (c := c) (by simp) _).perm (by
              have h1 := (List.perm_middle (l₁ := own ++ [c, context, mutex]) (l₂ := extra) (a := b)).symm
              simpa using h1), n, u, a⟩
          have hp := process_ok hE hs g4 e1 e2
          refine hany (v' := { ms.foldl (fun v t => Spec.message E t v) v with rx := st' }) ?_ fun e => ?_
          · refine ⟨hp.ub, fun w' h' e => ?_⟩
            obtain ⟨q1, q2, q3⟩ := hp.ok w' h' e
            refine ⟨q1, fun x hx => (q2 x hx).trans ?_, q3⟩
            rw [show (Heap.mk (upd h3.mem c _) h3.tick).mem x = h3.mem x from upd_other _ _ (by grind)]
            exact k3 x (by simp [hx])
          · simp only [Spec.op]; rw [← e, e1']
    · rw [if_neg h1]
      have hres : Nostr.Relay.receive true w.rx chunk = absorb w.rx chunk := by
        unfold Nostr.Relay.receive; rw [if_neg h0, if_neg h1]
      obtain ⟨st', ms, e1, e2, -⟩ := hsafe
      have e1' := e1
      rw [hres] at e1
      cases recv with
      | none => have := hr rfl; omega
      | some b =>
        rw [bind_at g.buffer.2]
        refine hany (process_ok hE hs g e1 e2) fun e => ?_
        simp only [Spec.op]; rw [← e, e1']

omit hA in
theorem Good.state {s : St} (g : Good A h0 c recv extra h w v) : Good A h0 c recv extra h { w with state := s } { v with state := s } := by
  obtain ⟨hw, ns, bl, k, ow, n, u, a⟩ := g
  exact ⟨hw, ns, bl, k, ow, n, u, a.imp_right fun a => ⟨a.subs, rfl, a.cb, a.rx, a.log⟩⟩

omit hA in
theorem op_ok (hE : Fresh E.A) (hs : ∀ log, .disconnect ∉ E.app log) {o : Op} (ho : o ≠ .act .disconnect) (g : Up E.A h0 c extra h w v) :
    Sim' E.A h0 c extra h w (Spec.op E o v) (op E o w h) := by
  cases o with
  | act a =>
    obtain ⟨recv, g, hr⟩ := g
    exact Sim.up hr (act_ok hE (by rintro rfl; exact ho rfl) g)
  | arrive chunk => exact arrive_ok hE hs chunk g
  | established =>
    obtain ⟨recv, g, hr⟩ := g
    have := callback_ok hE hs (.state .connected) (g.state (s := .connected))
    unfold op
    simp only [g.handle]
    rw [← g.handle]
    refine Sim.up hr (w := w) ⟨this.ub, fun w' h' e => ?_⟩
    obtain ⟨q1, q2⟩ := this.ok w' h' e
    exact ⟨q1, q2.keep, q2.rx, q2.self, q2.url⟩
  | lost again =>
    obtain ⟨recv, g, hr⟩ := g
    have h1 := callback_ok hE hs (.state .disconnected) (g.state (s := .disconnected))
    have h2 : Sim E.A h0 c recv extra h { w with state := .disconnected } (Spec.op E (.lost again) v) (lose E again w h) := by
      unfold lose
      refine Sim.bind h1 fun w1 h1 g1 _ => ?_
      cases again with
      | false => exact .done g1 (.refl _ _ _)
      | true =>
        have := callback_ok hE hs (.state .connecting) (g1.state (s := .connecting))
        refine ⟨this.ub, fun w' h' e => ?_⟩
        obtain ⟨q1, q2⟩ := this.ok w' h' e
        exact ⟨q1, q2.keep, q2.rx, q2.self, q2.url⟩
    unfold op
    simp only [g.handle]
    refine Sim.up hr (w := w) ⟨h2.ub, fun w' h' e => ?_⟩
    obtain ⟨q1, q2⟩ := h2.ok w' h' e
    exact ⟨q1, q2.keep, q2.rx, q2.self, q2.url⟩

omit hA in
theorem ops_ok (hE : Fresh E.A) (hs : ∀ log, .disconnect ∉ E.app log) (os : List Op) : ∀ {h w v}, (∀ o ∈ os, o ≠ .act .disconnect) →
    Up E.A h0 c extra h w v → Sim' E.A h0 c extra h w (os.foldl (fun v o => Spec.op E o v) v) (ops E os w h) := by
  induction os with
  | nil =>
    intro h w v _ g
    refine ⟨by simp [ops, M.pure], fun w' h' e => ?_⟩
    simp only [ops, M.pure, Option.some.injEq, Prod.mk.injEq] at e
    obtain ⟨rfl, rfl⟩ := e
    exact ⟨g, fun _ _ => rfl, rfl, rfl⟩
  | cons o os ih =>
    intro h w v ho g
    have h1 := op_ok hE hs (ho o (by simp)) g
    unfold ops
    cases hm : op E o w h with
    | none => unfold M.bind; rw [hm]; exact ⟨fun _ => h1.ub hm, by simp⟩
    | some r =>
      obtain ⟨w1, h1'⟩ := r
      obtain ⟨g1, k1, k2, k3⟩ := h1.ok _ _ hm
      rw [bind_at hm]
      have h2 := ih (fun o h => ho o (by simp [h])) g1
      refine ⟨h2.ub, fun w' h' e => ?_⟩
      obtain ⟨q1, q2, q3, q4⟩ := h2.ok w' h' e
      exact ⟨q1, fun x hx => (q2 x hx).trans (k1 x hx), q3.trans k2, q4.trans k3⟩

/-! ## The end of a connection -/

omit hA in
theorem disconnect_ok (g : Good A h0 c recv extra h w v) :
    ∃ h', disconnect w h = some ({ w with handle := none, state := .disconnected }, h') ∧ Owned h0 h'.mem extra ∧
      ∀ x ∈ extra, h'.mem x = h.mem x := by
  obtain ⟨hw, ns, bl, k, ow, n, u, a⟩ := g
  obtain ⟨head, context, mutex, own, hc, hl, rfl⟩ := k.ex
  unfold disconnect
  simp only [hw]
  rw [bind_at (loadPtr_at (i := 3) hc rfl), bind_at (storePtr_at (i := 3) hc (by simp))]
  have hnd := ow.nodup
  have hcn : c ∉ own ∧ c ∉ extra ∧ c ∉ recv.toList ∧ c ≠ context ∧ c ≠ mutex := by grind
  have o1 := ow.write (c := c) (by simp) (.ptrs ([head, recv, w.msgCb, some context, some mutex].set 3 none))
  obtain ⟨h2, e2, o2, k2⟩ := freeP (h := ⟨upd h.mem c (some (.ptrs ([head, recv, w.msgCb, some context, some mutex].set 3 none))), h.tick⟩)
    (p := some context) (b := mutex :: (own ++ (c :: (recv.toList ++ extra)))) (o1.perm (by
      rw [List.perm_iff_count]
      intro x
      simp only [List.count_append, List.count_cons, show (some context).toList = [context] from rfl, List.count_nil]
      omega))
  rw [bind_at e2]
  have hc2 : h2.mem c = some (.ptrs [head, recv, w.msgCb, none, some mutex]) := by rw [k2 c (by simp)]; simp
  rw [bind_at (loadPtr_at (i := 4) hc2 rfl)]
  obtain ⟨h3, e3, o3, k3⟩ := freeP (p := some mutex) o2
  rw [bind_at e3]
  have hl3 : LL h3.mem head ns own := hl.mono fun x hx => by
    rw [k3 x (by simp [hx]), k2 x (by simp [hx])]
    exact upd_other _ _ (by grind)
  obtain ⟨h4, e4, m4, o4, k4⟩ := freeSubs_ok c [recv, w.msgCb, none, some mutex] (c :: (recv.toList ++ extra)) (by simp) ns (w.n + 1) h3 head own
    hl3 (by omega) (by rw [k3 c (by simp), hc2]) o3
  rw [bind_at e4, bind_at (loadPtr_at (i := 1) m4 rfl)]
  obtain ⟨h5, e5, o5, k5⟩ := freeP (p := recv) (b := c :: extra) (o4.perm (by
    simpa using (List.perm_middle (l₁ := recv.toList) (l₂ := extra) (a := c)).symm))
  rw [bind_at e5]
  obtain ⟨h6, e6, o6, k6⟩ := freeP (p := some c) o5
  rw [bind_at e6]
  refine ⟨h6, rfl, o6, fun x hx => ?_⟩
  have hxc : x ≠ c := by grind
  rw [k6 x hx, k5 x (by simp [hx]), k4 x (by simp [hx]) hxc, k3 x (by simp [hx]), k2 x (by simp [hx])]
  exact upd_other _ _ hxc

end Nostr.Own.Relay
