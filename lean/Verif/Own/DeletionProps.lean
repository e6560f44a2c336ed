import Verif.Own.Basic
import Verif.Own.Deletion
import Verif.Filter.HeapProps

/-! # Property theorems: memory of a deletion request (C135) -/

namespace Nostr.Own.Deletion.Props
open Nostr Nostr.Heap Nostr.Own Nostr.Own.Deletion Nostr.Event Nostr.Filter.Own

/-! ## Specification -/

/-- The blocks of a request hold the values of `v`. -/
structure Rep (m : Mem) (r : HDel) (v : RelayProto.Deletion) : Prop where
  ids : ∃ own, StrArr m r.ids r.idCount v.ids own
  addresses : ∃ own, StrArr m r.addresses r.addressCount v.addresses own
  reason : ∃ own, OptS m r.reason v.reason own
  pubkey : r.pubkey = v.pubkey

/-! ## Lemmas -/

/-- An array that is being filled: none, or with `n` slots to go. -/
inductive Slots (m : Mem) : Option Nat → Nat → List Bytes → List Nat → Nat → Prop
  | null : Slots m none 0 [] [] 0
  | arr {d ps l n} (a : Arr m d ps l n) : Slots m (some d) ps.length l (d :: ps) n

theorem Slots.strArr {m p c l own n} (s : Slots m p c l own n) : StrArr m p c l own := by
  cases s with
  | null => exact .null
  | arr a => exact a.strArr

theorem Slots.mono {m m' : Mem} {p c l own n} (s : Slots m p c l own n) (h : ∀ x ∈ own, m' x = m x) : Slots m' p c l own n := by
  cases s with
  | null => exact .null
  | arr a => exact .arr (a.mono h)

theorem release_ok {h0 : Mem} {h : Heap} {r : HDel} {il io al ao rl ro} (hi : StrArr h.mem r.ids r.idCount il io)
    (ha : StrArr h.mem r.addresses r.addressCount al ao) (hr : OptS h.mem r.reason rl ro)
    (o : Owned h0 h.mem (io ++ (ao ++ ro))) : ∃ h', release r h = some (empty, h') ∧ h'.mem = h0 := by
  unfold release
  simp only [M.bind]
  obtain ⟨h1, e1, m1, o1⟩ := o.freeStrings hi
  have hn := List.nodup_append.1 o.nodup
  have keep : ∀ x ∈ ao ++ ro, h1.mem x = h.mem x := fun x hx => by
    rw [m1]; exact without_other _ fun hb => hn.2.2 x hb x hx rfl
  obtain ⟨h2, e2, m2, o2⟩ := o1.freeStrings (ha.mono fun x hx => keep x (List.mem_append_left _ hx))
  have hn2 := List.nodup_append.1 hn.2.1
  have keep2 : ∀ x ∈ ro, h2.mem x = h.mem x := fun x hx => by
    rw [m2, without_other _ fun hb => hn2.2.2 x hb x hx rfl]
    exact keep x (List.mem_append_right _ hx)
  obtain ⟨h3, e3, m3, o3⟩ := Owned.freeOpt (b := []) (by simpa using o2) (hr.mono keep2)
  rw [e1]; simp only [Option.bind_some]
  rw [e2]; simp only [Option.bind_some]
  rw [e3]; simp only [Option.bind_some, M.pure]
  exact ⟨h3, rfl, o3.eq⟩

theorem fail_ok {h0 : Mem} {h : Heap} {r : HDel} {il io al ao rl ro} (hi : StrArr h.mem r.ids r.idCount il io)
    (ha : StrArr h.mem r.addresses r.addressCount al ao) (hr : OptS h.mem r.reason rl ro)
    (o : Owned h0 h.mem (io ++ (ao ++ ro))) :
    ∃ h', fail r h = some ((some (.relay .memory), empty), h') ∧ h'.mem = h0 := by
  obtain ⟨h', e, m⟩ := release_ok hi ha hr o
  unfold fail
  simp only [M.bind, e, Option.bind_some, M.pure]
  exact ⟨h', rfl, m⟩

/-- Storing a copy in the next slot: without memory nothing changes. -/
theorem put_ok {A : Alloc} (hA : Fresh A) {h0 : Mem} {h : Heap} {p c l own n rest} {s : Bytes}
    (a : Slots h.mem p c l own (n + 1)) (o : Owned h0 h.mem (own ++ rest)) :
    (∃ h', put A p c s h = some (none, h') ∧ h'.mem = h.mem ∧ Refused A h0) ∨
    ∃ b h' own', put A p c s h = some (some b, h') ∧ Slots h'.mem p (c + 1) (l ++ [s]) own' n ∧
      Owned h0 h'.mem (own' ++ rest) ∧ ∀ x ∈ rest, h'.mem x = h.mem x := by
  cases a with
  | @arr d ps l n a =>
    unfold put
    simp only [M.bind]
    rcases o.alloc hA (.str s) with ⟨h1, e1, m1, f1⟩ | ⟨b, h1, e1, m1, n1, o1⟩
    · left
      simp only [e1, Option.bind_some]
      have hset : storePtr d ps.length none h1 = some ((), h1) := by
        unfold storePtr
        rw [m1, a.arr]
        simp only [List.length_append, List.length_map, List.length_replicate, List.replicate_succ]
        rw [if_pos (by simp)]
        congr 2
        have hp := set_pre (ps.map some) none none (List.replicate n none)
        rw [List.length_map] at hp
        rw [hp]
        have : upd h.mem d (some (.ptrs (ps.map some ++ none :: List.replicate n none))) = h.mem := by
          funext x
          by_cases hx : x = d
          · rw [hx, upd_same, a.arr, List.replicate_succ]
          · rw [upd_other _ _ hx]
        rw [this, ← m1]
      simp only [hset, Option.bind_some, M.pure]
      exact ⟨h1, rfl, m1, f1⟩
    · right
      have keep : ∀ x ∈ d :: ps ++ rest, h1.mem x = h.mem x := fun x hx => by
        rw [m1]; exact upd_other _ _ (by rintro rfl; exact o.live _ hx n1)
      have hnd := List.nodup_append.1 o.nodup
      have a1 : Arr h1.mem d ps l (n + 1) := a.mono fun x hx => keep x (List.mem_append_left _ hx)
      obtain ⟨h2, e2, a2, o2, k2⟩ := a1.push o1 (by simp) (fun x hx => by simp [hx]) hnd.1 (s := s) (by rw [m1]; simp)
      simp only [e1, e2, Option.bind_some, M.pure]
      refine ⟨b, h2, d :: (ps ++ [b]), rfl, ?_, ?_, ?_⟩
      · have := Slots.arr a2
        simpa using this
      · refine o2.perm ?_
        simp only [List.cons_append, List.append_assoc, List.singleton_append]
        exact (List.Perm.swap _ _ _).trans ((List.perm_middle (l₁ := ps)).symm.cons _)
      · intro x hx
        rw [k2 x (by rintro rfl; exact hnd.2.2 x (by simp) x hx rfl)]
        exact keep x (List.mem_append_right _ hx)

/-- What the caller finds. -/
def Outcome (A : Alloc) (h0 : Mem) (v : Res RelayProto.Deletion) (r : Option Err × HDel) (h : Heap) : Prop :=
  (∃ e, r = (some e, empty) ∧ (v = .err e ∨ (Refused A h0 ∧ e = .relay .memory)) ∧ h.mem = h0) ∨
  (r.1 = none ∧ ∃ w h', v = .ok w ∧ Rep h.mem r.2 w ∧ release r.2 h = some (empty, h') ∧ h'.mem = h0)

theorem fill_ok {A : Alloc} (hA : Fresh A) {h0 : Mem} : ∀ (ts : List (List Bytes)) {h : Heap} {r : HDel} {il io n al ao k rl ro}
    (_ : Slots h.mem r.ids r.idCount il io n) (_ : Slots h.mem r.addresses r.addressCount al ao k)
    (_ : OptS h.mem r.reason rl ro) (_ : Owned h0 h.mem (io ++ (ao ++ ro)))
    (_ : count c!"e" ts ≤ n) (_ : count c!"a" ts ≤ k),
    ∃ s h', fill A r ts h = some (s, h') ∧
      Outcome A h0 (.ok ⟨r.pubkey, rl, il ++ RelayProto.delIds ts, al ++ RelayProto.delAddrs ts⟩) s h'
  | [], h, r, il, io, n, al, ao, k, rl, ro, hi, ha, hr, o, _, _ => by
      obtain ⟨h', e, m⟩ := release_ok hi.strArr ha.strArr hr o
      refine ⟨_, _, rfl, .inr ⟨rfl, _, h', rfl, ⟨⟨io, ?_⟩, ⟨ao, ?_⟩, ⟨ro, hr⟩, rfl⟩, e, m⟩⟩
      · simpa [RelayProto.delIds] using hi.strArr
      · simpa [RelayProto.delAddrs] using ha.strArr
  | [] :: ts, h, r, il, io, n, al, ao, k, rl, ro, hi, ha, hr, o, h1, h2 => by
      simpa [fill, RelayProto.delIds, RelayProto.delAddrs] using fill_ok hA ts hi ha hr o h1 h2
  | [_] :: ts, h, r, il, io, n, al, ao, k, rl, ro, hi, ha, hr, o, h1, h2 => by
      simpa [fill, RelayProto.delIds, RelayProto.delAddrs] using fill_ok hA ts hi ha hr o h1 h2
  | (m :: v :: vs) :: ts, h, r, il, io, n, al, ao, k, rl, ro, hi, ha, hr, o, h1, h2 => by
      unfold fill RelayProto.delIds RelayProto.delAddrs
      unfold count at h1 h2
      by_cases he : m = c!"e"
      · subst he
        rw [if_pos rfl] at h1
        rw [if_neg (by decide)] at h2
        simp only [if_true]
        by_cases hv : RelayProto.validateHex64 v = true
        · rw [if_pos hv, if_pos hv]
          obtain ⟨n', rfl⟩ : ∃ n', n = n' + 1 := ⟨n - 1, by omega⟩
          rcases put_ok hA (s := v) hi o with ⟨g, e1, m1, f1⟩ | ⟨b, g, io', e1, s1, o1, k1⟩
          · simp only [M.bind, e1, Option.bind_some]
            obtain ⟨g2, e2, m2⟩ := fail_ok (h := g) (h0 := h0) (r := r) (by rw [m1]; exact hi.strArr) (by rw [m1]; exact ha.strArr)
              (by rw [m1]; exact hr) (by rw [m1]; exact o)
            exact ⟨_, g2, e2, .inl ⟨_, rfl, .inr ⟨f1, rfl⟩, m2⟩⟩
          · simp only [M.bind, e1, Option.bind_some]
            have := fill_ok hA ts (h := g) (r := { r with idCount := r.idCount + 1 }) s1
              (ha.mono fun x hx => k1 x (List.mem_append_left _ hx)) (hr.mono fun x hx => k1 x (List.mem_append_right _ hx)) o1
              (by omega) h2
            simpa using this
        · rw [if_neg hv, if_neg hv]
          exact fill_ok hA ts hi ha hr o (by omega) h2
      · rw [if_neg he] at h1
        rw [if_neg he, if_neg he, if_neg he]
        by_cases hx : m = c!"a"
        · rw [if_pos hx] at h2
          rw [if_pos hx, if_pos hx]
          by_cases hv : RelayProto.validateAddress v = true
          · rw [if_pos hv, if_pos hv]
            obtain ⟨k', rfl⟩ : ∃ k', k = k' + 1 := ⟨k - 1, by omega⟩
            have o' : Owned h0 h.mem (ao ++ (io ++ ro)) := o.perm (by
              rw [← List.append_assoc, ← List.append_assoc]
              exact List.Perm.append_right _ List.perm_append_comm)
            rcases put_ok hA (s := v) ha o' with ⟨g, e1, m1, f1⟩ | ⟨b, g, ao', e1, s1, o1, k1⟩
            · simp only [M.bind, e1, Option.bind_some]
              obtain ⟨g2, e2, m2⟩ := fail_ok (h := g) (h0 := h0) (r := r) (by rw [m1]; exact hi.strArr) (by rw [m1]; exact ha.strArr)
                (by rw [m1]; exact hr) (by rw [m1]; exact o)
              exact ⟨_, g2, e2, .inl ⟨_, rfl, .inr ⟨f1, rfl⟩, m2⟩⟩
            · simp only [M.bind, e1, Option.bind_some]
              have := fill_ok hA ts (h := g) (r := { r with addressCount := r.addressCount + 1 })
                (hi.mono fun x hx => k1 x (List.mem_append_left _ hx)) s1 (hr.mono fun x hx => k1 x (List.mem_append_right _ hx))
                (o1.perm (by
                  rw [← List.append_assoc, ← List.append_assoc]
                  exact List.Perm.append_right _ List.perm_append_comm)) h1 (by omega)
              simpa using this
          · rw [if_neg hv, if_neg hv]
            exact fill_ok hA ts hi ha hr o h1 (by omega)
        · rw [if_neg hx] at h2
          rw [if_neg hx, if_neg hx]
          exact fill_ok hA ts hi ha hr o h1 h2

theorem array_ok {A : Alloc} (hA : Fresh A) {h0 : Mem} {h : Heap} {own} (o : Owned h0 h.mem own) (n : Nat) :
    (∃ h', array A n h = some ((true, none), h') ∧ h'.mem = h.mem ∧ Refused A h0) ∨
    ∃ p h' d, array A n h = some ((false, p), h') ∧ Slots h'.mem p 0 [] d n ∧ Owned h0 h'.mem (d ++ own) ∧
      ∀ x ∈ own, h'.mem x = h.mem x := by
  unfold array
  by_cases hn : n = 0
  · rw [if_pos hn, hn]
    exact .inr ⟨none, h, [], rfl, .null, o, fun _ _ => rfl⟩
  · rw [if_neg hn]
    simp only [M.bind]
    rcases o.alloc hA (.ptrs (List.replicate n none)) with ⟨h1, e1, m1, f1⟩ | ⟨b, h1, e1, m1, n1, o1⟩
    · left
      simp only [e1, Option.bind_some, M.pure]
      exact ⟨h1, rfl, m1, f1⟩
    · right
      simp only [e1, Option.bind_some, M.pure]
      refine ⟨some b, h1, [b], rfl, ?_, o1, fun x hx => ?_⟩
      · exact .arr (ps := []) ⟨by rw [m1]; simp, .nil⟩
      · rw [m1]; exact upd_other _ _ (by rintro rfl; exact o.live _ hx n1)

theorem arrays_ok {A : Alloc} (hA : Fresh A) {h0 : Mem} {h : Heap} {r : HDel} {rl ro} (ts : List (List Bytes))
    (hi : r.ids = none) (hic : r.idCount = 0) (ha : r.addresses = none) (hac : r.addressCount = 0)
    (hr : OptS h.mem r.reason rl ro) (o : Owned h0 h.mem ro) :
    ∃ s h', arrays A r ts h = some (s, h') ∧
      Outcome A h0 (.ok ⟨r.pubkey, rl, RelayProto.delIds ts, RelayProto.delAddrs ts⟩) s h' := by
  unfold arrays
  simp only [M.bind]
  rcases array_ok hA o (count c!"e" ts) with ⟨g, e1, m1, f1⟩ | ⟨p, g, d, e1, s1, o1, k1⟩
  · simp only [e1, Option.bind_some, if_true]
    obtain ⟨g2, e2, m2⟩ := fail_ok (h := g) (h0 := h0) (r := r) (il := []) (io := []) (al := []) (ao := []) (rl := rl) (ro := ro)
      (by rw [hi, hic]; exact .null) (by rw [ha, hac]; exact .null) (by rw [m1]; exact hr) (by rw [m1]; exact o)
    exact ⟨_, g2, e2, .inl ⟨_, rfl, .inr ⟨f1, rfl⟩, m2⟩⟩
  · simp only [e1, Option.bind_some, Bool.false_eq_true, if_false, M.bind]
    have hr1 := hr.mono k1
    rcases array_ok hA o1 (count c!"a" ts) with ⟨g2, e2, m2, f2⟩ | ⟨q, g2, d2, e2, s2, o2, k2⟩
    · simp only [e2, Option.bind_some, if_true]
      obtain ⟨g3, e3, m3⟩ := fail_ok (h := g2) (h0 := h0) (r := { r with ids := p }) (il := []) (io := d) (al := []) (ao := [])
        (rl := rl) (ro := ro) (by rw [m2]; simp only [hic]; exact s1.strArr) (by simp only [ha, hac]; exact .null) (by rw [m2]; exact hr1)
        (by rw [m2]; exact o1)
      exact ⟨_, g3, e3, .inl ⟨_, rfl, .inr ⟨f2, rfl⟩, m3⟩⟩
    · simp only [e2, Option.bind_some, Bool.false_eq_true, if_false]
      have := fill_ok hA ts (h := g2) (h0 := h0) (r := { r with ids := p, addresses := q }) (il := []) (io := d)
        (al := []) (ao := d2) (rl := rl) (ro := ro)
        (by simp only [hic]; exact s1.mono fun x hx => k2 x (List.mem_append_left _ hx)) (by simp only [hac]; exact s2)
        (hr1.mono fun x hx => k2 x (List.mem_append_right _ hx))
        (o2.perm (by
          rw [← List.append_assoc, ← List.append_assoc]
          exact List.Perm.append_right _ List.perm_append_comm)) (Nat.le_refl _) (Nat.le_refl _)
      simpa using this

/-! ## C135 -/

/-- **C135.** Reading a deletion request, whatever the event is and whatever the allocator refuses, never touches memory
it does not own. Either it reports the error of the event, or that memory ran out, memory is as before and the request
is empty; or the request holds the values of the event, and releasing it brings memory back as it was. -/
theorem C135_memory {A : Alloc} (hA : Fresh A) (e : Event) (h : Heap) :
    ∃ r h', parse A e h = some (r, h') ∧ Outcome A h.mem (RelayProto.deletionParse e) r h' := by
  unfold parse RelayProto.deletionParse
  by_cases hk : e.kind ≠ 5
  · rw [if_pos hk, if_pos hk]
    exact ⟨_, _, rfl, .inl ⟨_, rfl, .inl rfl, rfl⟩⟩
  · rw [if_neg hk, if_neg hk]
    cases hc : e.content with
    | none =>
      exact arrays_ok hA (r := { empty with pubkey := Hex.hexEncode e.pubkey }) (rl := none) e.tags rfl rfl rfl rfl .null (.nil _)
    | some t =>
      cases t with
      | nil =>
        exact arrays_ok hA (r := { empty with pubkey := Hex.hexEncode e.pubkey }) (rl := none) e.tags rfl rfl rfl rfl .null (.nil _)
      | cons c cs =>
        simp only [M.bind]
        rcases (Owned.nil h.mem).alloc hA (.str (c :: cs)) with ⟨g, e1, m1, f1⟩ | ⟨b, g, e1, m1, n1, o1⟩
        · simp only [e1, Option.bind_some]
          obtain ⟨g2, e2, m2⟩ := fail_ok (h := g) (h0 := h.mem) (r := { empty with pubkey := Hex.hexEncode e.pubkey })
            (il := []) (io := []) (al := []) (ao := []) (rl := none) (ro := []) .null .null .null (by rw [m1]; exact .nil _)
          exact ⟨_, g2, e2, .inl ⟨_, rfl, .inr ⟨f1, rfl⟩, m2⟩⟩
        · simp only [e1, Option.bind_some]
          exact arrays_ok hA (r := { empty with pubkey := Hex.hexEncode e.pubkey, reason := some b }) (rl := some (c :: cs)) e.tags
            rfl rfl rfl rfl (.str (by rw [m1]; simp)) o1

/-- C135: while memory lasts, every deletion event is read. -/
theorem C135_enough_memory {A : Alloc} (hA : Fresh A) {e : Event} {h : Heap} (hk : e.kind = 5) (hm : ¬ Refused A h.mem) :
    ∃ r h' v, parse A e h = some ((none, r), h') ∧ RelayProto.deletionParse e = .ok v ∧ Rep h'.mem r v := by
  obtain ⟨⟨st, r⟩, h', h1, h2⟩ := C135_memory hA e h
  rcases h2 with ⟨er, -, h3 | h3, -⟩ | ⟨h3, w, h'', h4, h5, -⟩
  · unfold RelayProto.deletionParse at h3; rw [if_neg (by omega)] at h3; cases h3
  · exact absurd h3.1 hm
  · simp only at h3; subst h3; exact ⟨r, h', w, h1, h4, h5⟩

/-- C135: releasing a request twice is harmless. -/
theorem C135_twice {r : HDel} {h h' : Heap} {z : HDel} (h1 : release r h = some (z, h')) : release z h' = some (z, h') := by
  have : z = empty := by
    unfold release at h1
    simp only [M.bind, Option.bind_eq_some_iff, M.pure, Option.some.injEq, Prod.mk.injEq] at h1
    obtain ⟨_, _, _, _, _, _, hz, _⟩ := h1
    exact hz.symm
  subst this
  rfl

/-- A deletion of an event and an address, with a reason: five blocks; one too few. -/
def sample : Event :=
  ⟨[], List.replicate 32 7, 0, 5,
    [[c!"e", Hex.hexEncode (List.replicate 32 9)], [c!"e", c!"short"], [c!"k", c!"1"],
      [c!"a", c!"30023:" ++ Hex.hexEncode (List.replicate 32 7) ++ c!":d"]], some (c!"spam"), []⟩

example : ((parse (Filter.Props.failAt 99) sample ⟨fun _ => none, 0⟩).map fun r => (r.1.1, r.1.2.idCount, r.1.2.addressCount, r.2.tick)) =
      some (none, 1, 1, 5) ∧
    ((parse (Filter.Props.failAt 4) sample ⟨fun _ => none, 0⟩).map fun r => (r.1.1, decide (r.1.2 = empty), r.2.tick)) =
      some (some (.relay .memory), true, 5) := by
  decide +kernel

end Nostr.Own.Deletion.Props
