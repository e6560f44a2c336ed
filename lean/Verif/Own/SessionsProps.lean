import Verif.Own.SessionsLemmas

/-! # C171: the memory of wallet sessions -/

namespace Nostr.Own.Sessions.Props
open Nostr Nostr.Heap Nostr.Own Nostr.Own.Sessions Nostr.Filter.Own Nostr.Own.Relay

/-! ## Lemmas -/

/-- Nothing is lost and nothing is shared. -/
def Inv (A : Alloc) (h0 : Mem) (h : Heap) (w : World) : Prop := ∃ own, Holds (Refused A h0) h.mem w own ∧ Owned h0 h.mem own

theorem SlotsOwn.empty {P : Prop} {m : Mem} (n : Nat) : SlotsOwn P m (List.replicate n .empty) [] := by
  induction n with
  | zero => exact .nil
  | succ n ih => exact .cons (o := []) (os := []) ⟨⟨[], [], rfl, .null, .null⟩, rfl, fun _ => ⟨rfl, rfl⟩⟩ ih

/-- The table of the specification after `init`. -/
def ready (max : Nat) (t : Bool × Session.Table) : Session.Table := if t.1 then t.2 else { t.2 with slots := (Session.init max).slots }

theorem init_ok {A : Alloc} (hA : Fresh A) {h0 : Mem} {h : Heap} {w : World} (i : Inv A h0 h w) (max : Nat) :
    ∃ w' r h', init A max w h = some ((w', r), h') ∧ Inv A h0 h' w' ∧
      (Refused A h0 ∨ (w'.view = (true, ready max w.view) ∧ r = .ok)) := by
  obtain ⟨own, hw, o⟩ := i
  unfold init
  cases ht : w.table with
  | some a => exact ⟨w, _, h, rfl, ⟨own, hw, o⟩, .inr ⟨by simp [ready, World.view, ht], rfl⟩⟩
  | none =>
    simp only
    obtain ⟨⟨so, rfl, hso⟩, htab⟩ := hw
    have hsl := (htab ht).1
    rcases allocP hA o (.ints []) with ⟨h1, e1, m1, f1⟩ | ⟨a, h1, e1, m1, o1, k1⟩
    · rw [bind_at e1]
      exact ⟨_, _, h1, rfl, ⟨w.texts ++ so, ⟨⟨so, by simp [ht], by rw [m1]; exact hso⟩, fun _ => ⟨hsl, fun _ => f1⟩⟩, by simpa [m1, ht] using o⟩, .inl f1⟩
    · rw [bind_at e1]
      rw [hsl] at hso
      cases hso
      refine ⟨_, _, h1, rfl, ⟨_, ⟨⟨[], rfl, SlotsOwn.empty max⟩, fun h => by simp at h⟩, by simpa [ht] using o1⟩, .inr ⟨?_, rfl⟩⟩
      simp [World.view, ready, ht, Session.init, HSlot.empty]

theorem findIdx?_map {α β} (f : α → β) (p : β → Bool) (l : List α) : (l.map f).findIdx? p = l.findIdx? (fun x => p (f x)) := by
  induction l with
  | nil => rfl
  | cons a l ih => simp only [List.map_cons, List.findIdx?_cons, ih]

theorem place_ok {A : Alloc} (hA : Fresh A) {h0 : Mem} {h : Heap} {w : World} {c : Conn.HConn} {co own : List Nat} (hw : Holds (Refused A h0) h.mem w own)
    (hc : Link h.mem (some c) co) (o : Owned h0 h.mem (co ++ own)) (now : Int) (timeout : Nat) (id : Option Bytes) (tag : Nat) :
    (place A now timeout id tag c w h = none ∧ Refused A h0) ∨
    ∃ w' r h', place A now timeout id tag c w h = some ((w', r), h') ∧ Inv A h0 h' w' ∧
      (w'.view, r) = ((w.table.isSome, (Session.create now timeout id tag w.view.2).1), (Session.create now timeout id tag w.view.2).2) := by
  have hfree : ∀ (g : Heap) (rest : List Nat), (∀ x ∈ co, g.mem x = h.mem x) → Owned h0 g.mem (co ++ rest) →
      ∃ g', Conn.freeConn c g = some ((), g') ∧ Owned h0 g'.mem rest ∧ ∀ x ∈ rest, g'.mem x = g.mem x := by
    intro g rest hg og
    cases hc with
    | conn hr hl => exact freeConn_keep (hr.mono fun x hx => hg x (by simp [hx])) (hl.mono fun x hx => hg x (by simp [hx])) og
  obtain ⟨⟨so, rfl, hso⟩, htab⟩ := hw
  have htick : Session.tick now w.view.2 = ⟨w.slots.map (·.val), (Session.tick now ⟨[], w.window, w.count⟩).window,
      (Session.tick now ⟨[], w.window, w.count⟩).count⟩ := by
    simp only [Session.tick, World.view]
    by_cases hx : now - w.window ≥ 1
    · simp only [if_pos hx]; exact if_pos hx
    · simp only [if_neg hx]; exact if_neg hx
  unfold place
  simp only
  generalize (Session.tick now ⟨[], w.window, w.count⟩).window = win at htick ⊢
  generalize (Session.tick now ⟨[], w.window, w.count⟩).count = cnt at htick ⊢
  unfold Session.create
  rw [htick]
  simp only
  by_cases hlim : cnt ≥ 10
  · rw [if_pos hlim, if_pos hlim]
    obtain ⟨h1, e1, o1, k1⟩ := hfree h _ (fun _ _ => rfl) o
    right
    rw [bind_at e1]
    exact ⟨_, _, h1, rfl, ⟨_, ⟨⟨so, rfl, hso.mono fun x hx => k1 x (by simp [hx])⟩, htab⟩, o1⟩, rfl⟩
  · rw [if_neg hlim, if_neg hlim]
    by_cases hnull : w.table = none ∧ w.max > 0
    · left
      rw [if_pos hnull]
      exact ⟨rfl, (htab hnull.1).2 hnull.2⟩
    · right
      rw [if_neg hnull]
      obtain ⟨ss, h1, so1, e1, v1, hso1, o1, k1⟩ := cleanup_ok now w.slots h so (co ++ (w.table.toList ++ w.texts)) hso
        (o.perm (by rw [List.perm_iff_count]; intro b; simp only [List.count_append]; omega))
      rw [bind_at e1]
      have htab1 : w.table = none → ss = [] ∧ (w.max > 0 → Refused A h0) := fun ht => by
        refine ⟨?_, (htab ht).2⟩
        have := v1
        rw [(htab ht).1] at this
        simpa [Session.cleanup] using this
      have hidx : (Session.cleanup now (w.slots.map (·.val))).findIdx? (fun s => !s.active) = ss.findIdx? (fun s => !s.val.active) := by
        rw [← v1, findIdx?_map]
      have hplace : ∀ t, Session.place now timeout id tag (w.slots.map (·.val)) = t → Session.place now timeout id tag w.view.2.slots = t := fun _ h => h
      rw [hplace _ rfl]
      unfold Session.place
      rw [hidx, ← v1]
      have hgiveup : ∃ h2, Conn.freeConn c h1 = some ((), h2) ∧
          Inv A h0 h2 { w with window := win, count := cnt + 1, slots := ss } := by
        obtain ⟨h2, e2, o2, k2⟩ := hfree h1 (so1 ++ (w.table.toList ++ w.texts)) (fun x hx => k1 x (by simp [hx]))
          (o1.perm (by rw [List.perm_iff_count]; intro b; simp only [List.count_append]; omega))
        exact ⟨h2, e2, _, ⟨⟨so1, rfl, hso1.mono fun x hx => k2 x (by simp [hx])⟩, htab1⟩,
          o2.perm (by rw [List.perm_iff_count]; intro b; simp only [List.count_append]; omega)⟩
      cases hf : ss.findIdx? (fun s => !s.val.active) with
      | none =>
        simp only
        obtain ⟨h2, e2, i2⟩ := hgiveup
        rw [bind_at e2]
        exact ⟨_, _, h2, rfl, i2, rfl⟩
      | some k =>
        cases id with
        | none =>
          simp only
          obtain ⟨h2, e2, i2⟩ := hgiveup
          rw [bind_at e2]
          exact ⟨_, _, h2, rfl, i2, rfl⟩
        | some idt =>
          simp only
          obtain ⟨hk, hki, -⟩ := List.findIdx?_eq_some_iff_getElem.1 hf
          obtain ⟨s, hs⟩ : ∃ s, ss[k]? = some s := ⟨_, List.getElem?_eq_getElem hk⟩
          have hsi : s.val.active = false := by
            rw [List.getElem?_eq_getElem hk, Option.some.injEq] at hs
            rw [← hs]; simpa using hki
          obtain ⟨os, rest, hos, hperm, hset⟩ := hso1.focus k s hs
          have hoe : os = [] ∧ s.val.perms = [] ∧ s.val.cap = none := by
            obtain ⟨⟨co', ao', rfl, hc', ha'⟩, -, hidle⟩ := hos
            obtain ⟨h3, h4⟩ := hidle hsi
            rw [h3] at hc'
            rw [h4] at ha'
            cases hc'
            revert ha'
            generalize s.val.perms = ps
            generalize s.val.cap = cv
            intro ha'
            cases ha'
            exact ⟨rfl, rfl, rfl⟩
          obtain ⟨rfl, hp, hcap⟩ := hoe
          have hmod : ∀ f : HSlot → HSlot, ss.modify k f = ss.set k (f s) := fun f => by
            apply List.ext_getElem?
            intro j
            rw [List.getElem?_modify, List.getElem?_set]
            by_cases hj : k = j
            · subst hj; simp only [hs, if_true, if_pos hk]; simp
            · simp [hj]
          have htext : ∃ text h2, alloc A (.str idt) h1 = some (text, h2) ∧
              Owned h0 h2.mem (text.toList ++ (so1 ++ (co ++ (w.table.toList ++ w.texts)))) ∧
              ∀ x ∈ so1 ++ (co ++ (w.table.toList ++ w.texts)), h2.mem x = h1.mem x := by
            rcases allocP hA o1 (.str idt) with ⟨h2, e2, m2, f2⟩ | ⟨a, h2, e2, m2, o2, k2⟩
            · exact ⟨none, h2, e2, by rw [m2]; exact o1, fun x _ => by rw [m2]⟩
            · exact ⟨some a, h2, e2, o2, k2⟩
          obtain ⟨text, h2, e2, o2, k2⟩ := htext
          rw [bind_at e2]
          have hnew : SlotOwn (Refused A h0) h2.mem { s with conn := some c, val := Session.start now timeout idt tag s.val } (co ++ []) := by
            refine ⟨⟨co, [], rfl, hc.mono fun x hx => by rw [k2 x (by simp [hx]), k1 x (by simp [hx])], ?_⟩, rfl, fun h => by simp [Session.start] at h⟩
            have := (hos.idle hsi).2
            simp only [this, Session.start, hcap]
            exact .null
          obtain ⟨so2, hso2, hp2⟩ := hset h2.mem _ _ hnew fun x hx => k2 x (by simp [hperm.mem_iff, hx])
          refine ⟨_, _, h2, rfl, ⟨_, ⟨⟨so2, rfl, ?_⟩, ?_⟩, ?_⟩, ?_⟩
          · simp only [hmod]; exact hso2
          · intro ht
            have := (htab1 ht).1
            rw [this] at hk
            simp at hk
          · refine o2.perm ?_
            rw [List.perm_iff_count] at hp2 hperm ⊢
            intro b
            have a1 := hp2 b
            have a2 := hperm b
            simp only [List.count_append] at a1 a2 ⊢
            simp only [List.count_nil] at a1 a2
            omega
          · have : (ss.modify k fun s => { s with conn := some c, val := Session.start now timeout idt tag s.val }).map (·.val) =
                (ss.map (·.val)).modify k (Session.start now timeout idt tag) := by
              apply List.ext_getElem?
              intro j
              rw [List.getElem?_map, List.getElem?_modify, List.getElem?_modify, List.getElem?_map]
              by_cases hj : k = j
              · subst hj; cases ss[k]? <;> simp
              · simp [hj]
            simp only [World.view, this]

theorem create_ok {A : Alloc} (hA : Fresh A) {h0 : Mem} {h : Heap} {w : World} (i : Inv A h0 h w) (max : Nat) (now : Int) (timeout : Nat)
    (id : Option Bytes) (tag : Nat) (uri : Bytes) (hu : Conn.Props.luds uri ≤ 1) :
    (create A max now timeout id tag uri w h = none ∧ Refused A h0) ∨
    ∃ w' r h', create A max now timeout id tag uri w h = some ((w', r), h') ∧ Inv A h0 h' w' ∧
      (Refused A h0 ∨ Spec.step (.create max now timeout id tag uri) w.view = .ok (w'.view, r)) := by
  obtain ⟨w1, r1, h1, e1, ⟨own, hw1, o1⟩, v1⟩ := init_ok hA i max
  unfold create
  rw [bind_at e1]
  obtain ⟨⟨st, oc⟩, h2, e2, hr⟩ := Conn.Props.parse_own hA uri h1
  rw [bind_at e2]
  have hleak : ∀ leak : List Nat, leak.length ≤ Conn.Props.luds uri - 1 → leak = [] := fun l hl => List.length_eq_zero_iff.1 (by omega)
  cases oc with
  | none =>
    obtain ⟨e, leak, hst, hv, o2, hl⟩ := hr
    simp only at hst
    subst hst
    rw [hleak _ hl] at o2
    have hm := o2.eq
    refine .inr ⟨w1, _, h2, rfl, ⟨own, ?_, ?_⟩, ?_⟩
    · rw [hm]; exact hw1
    · rw [hm]; exact o1
    · rcases hv with hv | hv
      · rcases v1 with v1 | v1
        · exact .inl v1
        · right
          rw [v1.1]
          simp only [Spec.step, hv]
          rfl
      · exact .inl (hv.1.back o1.same)
  | some c =>
    obtain ⟨hst, v, ro, lo, leak, hv, -, -, hsr, hsl, o2, hl⟩ := hr
    simp only at hst
    subst hst
    rw [hleak leak (by omega)] at o2
    simp only
    have hx := o1.extend o2.nodup o2.fresh o2.live o2.same
    have hw2 : Holds (Refused A h0) h2.mem w1 own := by
      obtain ⟨⟨so, rfl, hso⟩, ht⟩ := hw1
      exact ⟨⟨so, rfl, hso.mono fun x hx' => hx.2 x (by simp [hx'])⟩, ht⟩
    rcases place_ok hA hw2 (.conn hsr hsl) hx.1 now timeout id tag with h3 | ⟨w', r, h', e, i', hv'⟩
    · exact .inl h3
    · refine .inr ⟨w', r, h', e, i', ?_⟩
      rcases v1 with v1 | v1
      · exact .inl v1
      · right
        simp only [Spec.step, hv]
        have hready : w1.table.isSome = true ∧ w1.view.2 = ready max w.view := by
          have := v1.1
          constructor
          · exact congrArg Prod.fst this
          · exact congrArg Prod.snd this
        rw [hready.1, hready.2] at hv'
        simp only [Prod.mk.injEq] at hv'
        rw [hv'.1, hv'.2]
        rfl

theorem at_ok {A : Alloc} (hA : Fresh A) {h0 : Mem} {h : Heap} {w : World} (i : Inv A h0 h w) (max : Nat) (now : Int) (k : Nat)
    (r : Session.Req) {s : HSlot} (hs : w.slots[k]? = some s) (hact : (∃ n l i, r = .add n l i) → s.val.active = true) :
    (M.bind (body A max now r s) (fun q => M.pure ({ w with slots := w.slots.set k q.1 }, q.2)) h = none ∧
      (Refused A h0 ∨ Session.body max now r s.val = .ub)) ∨
    ∃ w' q h', M.bind (body A max now r s) (fun q => M.pure ({ w with slots := w.slots.set k q.1 }, q.2)) h = some ((w', q), h') ∧ Inv A h0 h' w' ∧
      (Refused A h0 ∨ ∃ v, Session.body max now r s.val = .ok (v, q) ∧ w'.view = (w.view.1, { w.view.2 with slots := w.view.2.slots.set k v })) := by
  obtain ⟨own, ⟨⟨so, rfl, hso⟩, ht⟩, o⟩ := i
  obtain ⟨os, rest, hos, hperm, hset⟩ := hso.focus k s hs
  have oo : Owned h0 h.mem (os ++ (rest ++ (w.table.toList ++ w.texts))) := o.perm (by
    rw [List.perm_iff_count] at hperm ⊢
    intro b
    have := hperm b
    simp only [List.count_append] at this ⊢
    omega)
  rcases body_ok hA hos oo max now r hact with ⟨h1, h2⟩ | ⟨s', q, h1, own', e1, hs1, o1, k1, v1⟩
  · exact .inl ⟨bind_none h1, h2⟩
  · right
    rw [bind_at e1]
    obtain ⟨so', hso', hp'⟩ := hset h1.mem s' own' hs1 fun x hx => k1 x (by simp [hx])
    refine ⟨_, _, h1, rfl, ⟨_, ⟨⟨so', rfl, hso'⟩, fun h => ?_⟩, ?_⟩, ?_⟩
    · rw [(ht h).1] at hs; simp at hs
    · refine o1.perm ?_
      rw [List.perm_iff_count] at hp' ⊢
      intro b
      have := hp' b
      simp only [List.count_append] at this ⊢
      omega
    · rcases v1 with v1 | v1
      · exact .inl v1
      · exact .inr ⟨_, v1, by simp [World.view, List.map_set]⟩

theorem perm_eraseIdx (l : List Nat) : ∀ (k : Nat) (h : k < l.length), l.Perm (l[k] :: l.eraseIdx k) := by
  induction l with
  | nil => intro k h; simp at h
  | cons a l ih =>
    intro k h
    cases k with
    | zero => exact .refl _
    | succ k => exact ((ih k (by simpa using h)).cons a).trans (List.Perm.swap _ _ _)

theorem step_ok {A : Alloc} (hA : Fresh A) {h0 : Mem} {h : Heap} {w : World} (i : Inv A h0 h w) (op : Op) (ht : op.tame) :
    (step A op w h = none ∧ (Refused A h0 ∨ Spec.step op w.view = .ub)) ∨
    ∃ w' r h', step A op w h = some ((w', r), h') ∧ Inv A h0 h' w' ∧ (Refused A h0 ∨ Spec.step op w.view = .ok (w'.view, r)) := by
  cases op with
  | init max =>
    obtain ⟨w', r, h', e, i', v⟩ := init_ok hA i max
    refine .inr ⟨w', r, h', e, i', ?_⟩
    rcases v with v | ⟨v1, v2⟩
    · exact .inl v
    · right; rw [v1, v2]; rfl
  | create max now timeout id tag uri =>
    rcases create_ok hA i max now timeout id tag uri ht with ⟨h1, h2⟩ | h1
    · exact .inl ⟨h1, .inl h2⟩
    · exact .inr h1
  | call max now id r =>
    simp only [step, Spec.step, Session.call]
    by_cases hnull : w.table = none ∧ w.max > 0
    · left
      obtain ⟨own, hw, -⟩ := i
      exact ⟨bind_none (by unfold find; rw [if_pos hnull]), .inl ((hw.table hnull.1).2 hnull.2)⟩
    · have hv : w.view.2.slots = w.slots.map (·.val) := rfl
      rw [hv]
      cases hf : Session.findSlot (w.slots.map (·.val)) id with
      | ub => exact .inl ⟨bind_none (by unfold find; rw [if_neg hnull, hf]), .inr rfl⟩
      | err e => exfalso; unfold Session.findSlot at hf; split at hf <;> simp at hf
      | ok ko =>
        rw [bind_at (show find w id h = some (ko, h) by unfold find; rw [if_neg hnull, hf])]
        cases ko with
        | none => exact .inr ⟨w, _, h, rfl, i, .inr rfl⟩
        | some k =>
          simp only [Res.bind_ok]
          have hk : (w.slots.map (·.val)).findIdx? (fun s => s.active && decide (s.id = (id ++ [0]).take 64)) = some k := by
            unfold Session.findSlot at hf
            split at hf
            · simp at hf
            · simpa using hf
          obtain ⟨hlt, hka, -⟩ := List.findIdx?_eq_some_iff_getElem.1 hk
          rw [List.length_map] at hlt
          have hs : w.slots[k]? = some w.slots[k] := List.getElem?_eq_getElem hlt
          rw [hs]
          simp only [List.getElem?_map, hs, Option.map_some]
          have hact : w.slots[k].val.active = true := by
            simp only [List.getElem_map, Bool.and_eq_true] at hka; exact hka.1
          rcases at_ok hA i max now k r hs (fun _ => hact) with ⟨h1, h2⟩ | ⟨w', q, h', e, i', v⟩
          · refine .inl ⟨h1, ?_⟩
            rcases h2 with h2 | h2
            · exact .inl h2
            · right; rw [h2]; rfl
          · refine .inr ⟨w', q, h', e, i', ?_⟩
            rcases v with v | ⟨v, hb, hw⟩
            · exact .inl v
            · right; rw [hb, hw]; rfl
  | late max now k r =>
    simp only [step, Spec.step]
    have hv : w.view.2.slots = w.slots.map (·.val) := rfl
    rw [hv, List.getElem?_map]
    cases hs : w.slots[k]? with
    | none => exact .inr ⟨w, _, h, rfl, i, .inr rfl⟩
    | some s =>
      simp only [Option.map_some]
      have hadd : (∃ n l i, r = .add n l i) → s.val.active = true := by
        rintro ⟨n, l, i, rfl⟩
        exact absurd ht id
      rcases at_ok hA i max now k r hs hadd with ⟨h1, h2⟩ | ⟨w', q, h', e, i', v⟩
      · refine .inl ⟨h1, ?_⟩
        rcases h2 with h2 | h2
        · exact .inl h2
        · right; rw [h2]; rfl
      · refine .inr ⟨w', q, h', e, i', ?_⟩
        rcases v with v | ⟨v, hb, hw⟩
        · exact .inl v
        · right; rw [hb, hw]; rfl
  | drop k =>
    simp only [step, Spec.step]
    cases hk : w.texts[k]? with
    | none => exact .inr ⟨w, _, h, rfl, i, .inr rfl⟩
    | some a =>
      obtain ⟨own, ⟨⟨so, rfl, hso⟩, htab⟩, o⟩ := i
      obtain ⟨hlt, hka⟩ := List.getElem?_eq_some_iff.1 hk
      have hp : w.texts.Perm (a :: w.texts.eraseIdx k) := by
        rw [← hka]; exact (perm_eraseIdx _ _ hlt)
      have oo : Owned h0 h.mem (a :: (w.table.toList ++ (w.texts.eraseIdx k ++ so))) := o.perm (by
        rw [List.perm_iff_count] at hp ⊢
        intro b
        have := hp b
        simp only [List.count_append, List.count_cons] at this ⊢
        omega)
      obtain ⟨h1, e1, m1, o1⟩ := oo.free
      have k1 := keep_of_without (a := [a]) oo m1
      simp only
      rw [bind_at e1]
      exact .inr ⟨_, _, h1, rfl, ⟨_, ⟨⟨so, rfl, hso.mono fun x hx => k1 x (by simp [hx])⟩, htab⟩, o1⟩, .inr rfl⟩

theorem run_ok {A : Alloc} (hA : Fresh A) {h0 : Mem} : ∀ (ops : List Op) (h : Heap) (w : World), Inv A h0 h w → (∀ op ∈ ops, op.tame) →
    (run A ops w h = none ∧ (Refused A h0 ∨ Spec.run ops w.view = .ub)) ∨
    ∃ w' rs h', run A ops w h = some ((w', rs), h') ∧ Inv A h0 h' w' ∧ (Refused A h0 ∨ Spec.run ops w.view = .ok (w'.view, rs)) := by
  intro ops
  induction ops with
  | nil => intro h w i _; exact .inr ⟨w, [], h, rfl, i, .inr rfl⟩
  | cons op ops ih =>
    intro h w i ht
    simp only [run, Spec.run]
    rcases step_ok hA i op (ht op (by simp)) with ⟨h1, h2⟩ | ⟨w1, r, h1, e1, i1, v1⟩
    · refine .inl ⟨bind_none h1, ?_⟩
      rcases h2 with h2 | h2
      · exact .inl h2
      · right; rw [h2]; rfl
    · rw [bind_at e1]
      rcases ih h1 w1 i1 (fun op hop => ht op (by simp [hop])) with ⟨h2, h3⟩ | ⟨w2, rs, h2, e2, i2, v2⟩
      · refine .inl ⟨bind_none h2, ?_⟩
        rcases h3 with h3 | h3
        · exact .inl h3
        · rcases v1 with v1 | v1
          · exact .inl v1
          · right; rw [v1, Res.bind_ok, h3]; rfl
      · rw [bind_at e2]
        refine .inr ⟨w2, r :: rs, h2, rfl, i2, ?_⟩
        rcases v1 with v1 | v1
        · exact .inl v1
        · rcases v2 with v2 | v2
          · exact .inl v2
          · right; rw [v1, Res.bind_ok, v2]; rfl

theorem start_inv (A : Alloc) (h : Heap) : Inv A h.mem h .start :=
  ⟨[], ⟨⟨[], rfl, .nil⟩, fun _ => ⟨rfl, fun h => by simp [World.start] at h⟩⟩, .nil _⟩

/-! ## The theorems -/

/-- **C171** (partial: for histories in which no permission is added by a call that was overtaken by the one that gave its
session up, and whose connection texts have at most one Lightning address). Whatever is called, in whatever order, and
whatever memory is refused: as long as the library has not left C behind, the live blocks are exactly the table, the texts
of ids that the application holds, and the connections and permissions of the sessions. Nothing is lost, nothing is
released twice. -/
theorem C171_memory_partial {A : Alloc} (hA : Fresh A) {ops : List Op} (ht : ∀ op ∈ ops, op.tame) {h h' : Heap} {w : World}
    {rs : List Session.Ret} (e : run A ops .start h = some ((w, rs), h')) :
    ∃ own, Holds (Refused A h.mem) h'.mem w own ∧ Owned h.mem h'.mem own := by
  rcases run_ok hA ops h .start (start_inv A h) ht with ⟨h1, -⟩ | ⟨w', rs', h1, e1, i, -⟩
  · rw [e] at h1; simp at h1
  · rw [e] at e1
    simp only [Option.some.injEq, Prod.mk.injEq] at e1
    obtain ⟨⟨rfl, rfl⟩, rfl⟩ := e1
    exact i

/-- C171: when every session has been given up and every text released, only the table is left. -/
theorem C171_closed_partial {A : Alloc} (hA : Fresh A) {ops : List Op} (ht : ∀ op ∈ ops, op.tame) {h h' : Heap} {w : World}
    {rs : List Session.Ret} (e : run A ops .start h = some ((w, rs), h')) (hs : ∀ s ∈ w.slots, s.val.active = false)
    (hx : w.texts = []) : Owned h.mem h'.mem w.table.toList := by
  obtain ⟨own, ⟨⟨so, rfl, hso⟩, -⟩, o⟩ := C171_memory_partial hA ht e
  have hnil : ∀ (ss : List HSlot) (so : List Nat), SlotsOwn (Refused A h.mem) h'.mem ss so → (∀ s ∈ ss, s.val.active = false) → so = [] := by
    intro ss so hss
    induction hss with
    | nil => intro _; rfl
    | @cons s ss o os hs0 _ ih =>
      intro hall
      rw [ih fun x hx => hall x (by simp [hx])]
      obtain ⟨⟨co, ao, rfl, hc, ha⟩, -, hi⟩ := hs0
      obtain ⟨h1, h2⟩ := hi (hall s (by simp))
      rw [h1] at hc
      rw [h2] at ha
      cases hc
      revert ha
      generalize s.val.perms = ps
      generalize s.val.cap = cv
      intro ha
      cases ha
      rfl
  rw [hx, hnil _ _ hso hs] at o
  simpa using o

/-- C171: while memory lasts the library stays within C, and the results and the values of the sessions are those of the
sessions without a heap (C38, C39, C40), unless these leave C behind (C41, C94). -/
theorem C171_values_partial {A : Alloc} (hA : Fresh A) {ops : List Op} (ht : ∀ op ∈ ops, op.tame) {h : Heap} (hm : ¬ Refused A h.mem)
    (hs : Spec.run ops World.start.view ≠ .ub) :
    ∃ w rs h', run A ops .start h = some ((w, rs), h') ∧ Spec.run ops World.start.view = .ok (w.view, rs) := by
  rcases run_ok hA ops h .start (start_inv A h) ht with ⟨-, h1 | h1⟩ | ⟨w, rs, h1, e1, -, h2 | h2⟩
  · exact absurd h1 hm
  · exact absurd h1 hs
  · exact absurd h2 hm
  · exact ⟨w, rs, h1, e1, h2⟩

/-! ## Where it fails -/

/-- A connection text. -/
def uri1 : Bytes := Nip47.scheme ++ c!"00000000000000000000000000000000000000000000000000000000000000ff?relay=wss://r&secret=00000000000000000000000000000000000000000000000000000000000000aa&lud16=a@b"

/-- Two ids. -/
def id1 : Bytes := List.replicate 64 0x61
def id2 : Bytes := List.replicate 64 0x62

/-- The empty heap. -/
def none0 : Heap := ⟨fun _ => none, 0⟩

/-- A life of two sessions: create, add, check, look, extend, add, destroy, and once more. -/
def life : List Op :=
  [.create 2 5 100 (some id1) 7 uri1, .call 32 6 id1 (.add c!"pay" 10 60), .call 32 7 id1 (.check c!"pay" 4),
   .call 32 7 id1 .get, .call 32 8 id1 (.extend 9), .create 2 9 1 (some id2) 8 uri1, .call 32 9 id2 (.add c!"*" 0 60),
   .call 32 9 id1 .destroy, .drop 0, .create 2 20 1 (some id1) 9 uri1, .call 32 20 id1 .destroy, .drop 1, .drop 0]

/-- One session is given up, a permission is added by a call that had found it before, and the slot is used again. -/
def overtaken : List Op :=
  [.create 2 5 100 (some id1) 7 uri1, .drop 0, .call 32 6 id1 .destroy, .late 32 6 0 (.add c!"pay" 10 60),
   .create 2 7 100 (some id2) 8 uri1, .drop 0, .call 32 8 id2 .destroy]

theorem of_map {α β : Type} {x : Option α} {f : α → β} {y : β} (h : x.map f = some y) : ∃ a, x = some a ∧ f a = y := by
  cases x with
  | none => simp at h
  | some a => exact ⟨a, rfl, by simpa using h⟩

/-- C171 fails without the restriction: after `overtaken`, with all the memory one could wish for, every call succeeded,
no session is in use and no text is held, and still the copy of the name is live; nothing refers to it. -/
theorem C171_overtaken_refuted : ∃ (A : Alloc) (w : World) (h : Heap) (a : Nat), Fresh A ∧
    run A overtaken .start none0 = some ((w, List.replicate 7 .ok), h) ∧ (∀ s ∈ w.slots, s = ⟨s.val, none, none⟩ ∧ s.val.active = false) ∧
    w.texts = [] ∧ w.table ≠ some a ∧ h.mem a = some (.str c!"pay") := by
  have key : (run (Filter.Props.failAt 99) overtaken .start none0).map (fun r => (r.1.2, decide (r.1.1.table = some 100 ∧ r.1.1.texts = []),
      r.1.1.slots.all (fun s => s.conn.isNone && s.array.isNone && !s.val.active), r.2.mem 108)) =
      some (List.replicate 7 .ok, true, true, some (.str c!"pay")) := by decide +kernel
  obtain ⟨⟨⟨w, rs⟩, h⟩, e, hx⟩ := of_map key
  simp only [Prod.mk.injEq, decide_eq_true_eq, List.all_eq_true, Bool.and_eq_true, Option.isNone_iff_eq_none] at hx
  obtain ⟨rfl, ⟨h1, h2⟩, h3, h4⟩ := hx
  refine ⟨_, w, h, 108, Ev.Props.failAt_fresh 99, e, fun s hs => ?_, h2, by rw [h1]; simp, h4⟩
  obtain ⟨⟨h5, h6⟩, h7⟩ := h3 s hs
  obtain ⟨v, c, a⟩ := s
  simp only at h5 h6 h7
  exact ⟨by simp [h5, h6], by simpa using h7⟩

/-- Such a call exists: with two threads, one can be inside `nostr_nip47_session_add_permission` on a slot that the other
has given up. -/
theorem C171_overtaken_reachable : ∃ w s, Session.Reach 2 w ∧ w.pc 1 = .inside id1 (.add c!"pay" 10 60) 0 ∧
    w.table.slots[0]? = some s ∧ s.active = false := by
  have r0 : Session.Reach 2 (Session.start0 2) := .start
  have r1 := r0.step (.create (now := 5) (timeout := 100) (id := id1) (conn := 7) rfl (fun _ _ => rfl) (by decide +kernel) (by decide +kernel))
  have r2 := r1.step (.found (id := id1) (r := .destroy) (t := 0) (k := 0) rfl rfl (by decide +kernel))
  have r3 := r2.step (.lock (id := id1) (r := .destroy) (t := 0) (k := 0) rfl rfl)
  have r4 := r3.step (.found (id := id1) (r := .add c!"pay" 10 60) (t := 1) (k := 0) rfl rfl (by decide +kernel))
  have r5 := r4.step (.work (id := id1) (r := .destroy) (t := 0) (k := 0) 32 6 rfl rfl rfl)
  have r6 := r5.step (.unlock (t := 0) (k := 0) rfl)
  have r7 := r6.step (.lock (id := id1) (r := .add c!"pay" 10 60) (t := 1) (k := 0) rfl rfl)
  exact ⟨_, _, r7, rfl, rfl, rfl⟩

/-- C171 fails when memory is refused: if the table cannot be allocated, creating a session goes on with a table that is
NULL; and so does every later call on a session, although the text of the connection was refused. -/
theorem C171_table_refuted : ∃ A, Fresh A ∧ run A [.create 2 5 100 (some id1) 7 uri1] .start none0 = none ∧
    run A [.create 2 5 100 (some id1) 7 c!"nonsense", .call 32 6 id1 .get] .start none0 = none :=
  ⟨_, Ev.Props.failAt_fresh 0, by decide +kernel, by decide +kernel⟩

/-- C171 fails when memory is refused: a permission whose name could not be copied is reported as added, and the next
check of a permission passes NULL to `strcmp`. -/
theorem C171_name_refuted : ∃ (A : Alloc) (w : World) (h : Heap), Fresh A ∧
    run A [.create 2 5 100 (some id1) 7 uri1, .call 32 6 id1 (.add c!"pay" 10 60)] .start none0 = some ((w, [.ok, .ok]), h) ∧
    step A (.call 32 7 id1 (.check c!"pay" 4)) w h = none := by
  have key : (run (Filter.Props.failAt 8) [.create 2 5 100 (some id1) 7 uri1, .call 32 6 id1 (.add c!"pay" 10 60)] .start none0).map
      (fun r => (r.1.2, (step (Filter.Props.failAt 8) (.call 32 7 id1 (.check c!"pay" 4)) r.1.1 r.2).isNone)) = some ([.ok, .ok], true) := by
    decide +kernel
  obtain ⟨⟨⟨w, rs⟩, h⟩, e, hx⟩ := of_map key
  simp only [Prod.mk.injEq, Option.isNone_iff_eq_none] at hx
  obtain ⟨rfl, h1⟩ := hx
  exact ⟨_, w, h, Ev.Props.failAt_fresh 8, e, h1⟩

/-- C171 fails when memory is refused: if the id cannot be copied the call succeeds, the session is in use, and the
application has no id with which to give it up. -/
theorem C171_text_refuted : ∃ (A : Alloc) (w : World) (h : Heap), Fresh A ∧
    run A [.create 2 5 100 (some id1) 7 uri1] .start none0 = some ((w, [.ok]), h) ∧ w.texts = [] ∧ ∃ s ∈ w.slots, s.val.active = true := by
  have key : (run (Filter.Props.failAt 6) [.create 2 5 100 (some id1) 7 uri1] .start none0).map
      (fun r => (r.1.2, r.1.1.texts, r.1.1.slots.any (·.val.active))) = some ([.ok], [], true) := by decide +kernel
  obtain ⟨⟨⟨w, rs⟩, h⟩, e, hx⟩ := of_map key
  simp only [Prod.mk.injEq] at hx
  obtain ⟨rfl, h1, h2⟩ := hx
  exact ⟨_, w, h, Ev.Props.failAt_fresh 6, e, h1, by simpa using h2⟩

/-- C171 does not cover the connection that is handed out: it belongs to the session, and when the session is given up,
here because it expired and another one is created, the pointer that the application got is dangling. -/
theorem C171_borrowed_refuted : ∃ (A : Alloc) (w w' : World) (h h' : Heap) (s : HSlot) (c : Conn.HConn), Fresh A ∧
    run A [.create 2 5 100 (some id1) 7 uri1, .call 32 7 id1 .get] .start none0 = some ((w, [.ok, .conn (some 7)]), h) ∧
    w.slots[0]? = some s ∧ s.conn = some c ∧ h.mem c.self ≠ none ∧
    step A (.create 2 200 100 (some id2) 8 uri1) w h = some ((w', .ok), h') ∧ h'.mem c.self = none := by
  have key : (run (Filter.Props.failAt 99) [.create 2 5 100 (some id1) 7 uri1, .call 32 7 id1 .get] .start none0).map
      (fun r => (r.1.2, r.1.1.slots[0]?.map (fun s => s.conn.map (·.self)), (r.2.mem 101).isSome,
        (step (Filter.Props.failAt 99) (.create 2 200 100 (some id2) 8 uri1) r.1.1 r.2).map fun q => (q.1.2, (q.2.mem 101).isNone))) =
      some ([.ok, .conn (some 7)], some (some 101), true, some (.ok, true)) := by decide +kernel
  obtain ⟨⟨⟨w, rs⟩, h⟩, e, hx⟩ := of_map key
  simp only [Prod.mk.injEq] at hx
  obtain ⟨rfl, h1, h2, h3⟩ := hx
  obtain ⟨s, hs, h1⟩ := of_map h1
  obtain ⟨c, hc, h1⟩ := of_map h1
  obtain ⟨⟨⟨w', r⟩, h'⟩, e', h3⟩ := of_map h3
  simp only [Prod.mk.injEq, Option.isNone_iff_eq_none] at h3
  obtain ⟨rfl, h3⟩ := h3
  refine ⟨_, w, w', h, h', s, c, Ev.Props.failAt_fresh 99, e, hs, hc, ?_, e', by rw [h1]; exact h3⟩
  rw [h1]
  intro hn
  rw [hn] at h2
  simp at h2

/-- The hypotheses are met: a life of three sessions with permissions is tame, succeeds, and leaves only the table. -/
example : (∀ op ∈ life, op.tame) ∧
    (run (Filter.Props.failAt 99) life .start none0).map (fun r => (r.1.2.length, r.1.1.texts, r.1.1.slots.map (·.val.active), r.2.tick)) =
      some (13, [], [false, false], 23) ∧ (Spec.run life World.start.view).isOk = true := by
  refine ⟨?_, by decide +kernel, by decide +kernel⟩
  have hu : Conn.Props.luds uri1 ≤ 1 := by decide +kernel
  intro op hop
  simp only [life, List.mem_cons, List.not_mem_nil, or_false] at hop
  rcases hop with rfl | rfl | rfl | rfl | rfl | rfl | rfl | rfl | rfl | rfl | rfl | rfl | rfl <;> first | exact hu | trivial

end Nostr.Own.Sessions.Props
