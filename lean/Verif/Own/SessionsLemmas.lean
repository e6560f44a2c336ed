import Verif.Own.SessionsSpec
import Verif.Own.RelayLemmas

namespace Nostr.Own.Sessions
open Nostr Nostr.Heap Nostr.Own Nostr.Filter.Own Nostr.Own.Relay

/-! ## Changing memory elsewhere -/

theorem Names.mono {P : Prop} {m m' : Mem} {qs ps} (h : Names P m qs ps) (hm : ∀ x ∈ qs.filterMap id, m' x = m x) : Names P m' qs ps := by
  induction h with
  | nil => exact .nil
  | copy h t ih => exact .copy ((hm _ (by simp)).trans h) (ih fun x hx => hm x (by simp at hx ⊢; exact .inr hx))
  | null h t ih => exact .null h (ih fun x hx => hm x (by simp at hx ⊢; exact hx))

theorem Names.length {P : Prop} {m : Mem} {qs ps} (h : Names P m qs ps) : qs.length = ps.length := by
  induction h with
  | nil => rfl
  | copy _ _ ih => simp [ih]
  | null _ _ ih => simp [ih]

theorem PermArr.mono {P : Prop} {m m' : Mem} {p ps c o} (h : PermArr P m p ps c o) (hm : ∀ x ∈ o, m' x = m x) : PermArr P m' p ps c o := by
  cases h with
  | null => exact .null
  | arr ha hn => exact .arr ((hm _ (by simp)).trans ha) (hn.mono fun x hx => hm x (List.mem_cons_of_mem _ hx))

theorem Link.mono {m m' : Mem} {p o} (h : Link m p o) (hm : ∀ x ∈ o, m' x = m x) : Link m' p o := by
  cases h with
  | null => exact .null
  | conn hr hl => exact .conn (hr.mono fun x hx => hm x (by simp [hx])) (hl.mono fun x hx => hm x (by simp [hx]))

theorem SlotOwn.mono {P : Prop} {m m' : Mem} {s o} (h : SlotOwn P m s o) (hm : ∀ x ∈ o, m' x = m x) : SlotOwn P m' s o := by
  obtain ⟨⟨co, ao, rfl, h1, h2⟩, h3, h4⟩ := h
  exact ⟨⟨co, ao, rfl, h1.mono fun x hx => hm x (by simp [hx]), h2.mono fun x hx => hm x (by simp [hx])⟩, h3, h4⟩

theorem SlotsOwn.mono {P : Prop} {m m' : Mem} {ss o} (h : SlotsOwn P m ss o) (hm : ∀ x ∈ o, m' x = m x) : SlotsOwn P m' ss o := by
  induction h with
  | nil => exact .nil
  | cons h t ih => exact .cons (h.mono fun x hx => hm x (by simp [hx])) (ih fun x hx => hm x (by simp [hx]))

/-- One slot in the table: its blocks, the blocks of the others, and what happens when it is replaced. -/
theorem SlotsOwn.focus {P : Prop} {m : Mem} {ss : List HSlot} {o : List Nat} (h : SlotsOwn P m ss o) :
    ∀ (k : Nat) (s : HSlot), ss[k]? = some s → ∃ os rest, SlotOwn P m s os ∧ o.Perm (os ++ rest) ∧
      ∀ (m' : Mem) (s' : HSlot) (os' : List Nat), SlotOwn P m' s' os' → (∀ x ∈ rest, m' x = m x) →
        ∃ o', SlotsOwn P m' (ss.set k s') o' ∧ o'.Perm (os' ++ rest) := by
  induction h with
  | nil => intro k s hk; simp at hk
  | @cons s0 ss0 o0 os0 h t ih =>
    intro k s hk
    cases k with
    | zero =>
      simp only [List.getElem?_cons_zero, Option.some.injEq] at hk
      subst hk
      exact ⟨o0, os0, h, .refl _, fun m' s' os' hs hm => ⟨os' ++ os0, .cons hs (t.mono hm), .refl _⟩⟩
    | succ k =>
      simp only [List.getElem?_cons_succ] at hk
      obtain ⟨os, rest, h1, h2, h3⟩ := ih k s hk
      have swap : ∀ l : List Nat, (o0 ++ (l ++ rest)).Perm (l ++ (o0 ++ rest)) := fun l => by
        rw [List.perm_iff_count]; intro a; simp only [List.count_append]; omega
      refine ⟨os, o0 ++ rest, h1, (h2.append_left o0).trans (swap os), fun m' s' os' hs hm => ?_⟩
      obtain ⟨o', h4, h5⟩ := h3 m' s' os' hs fun x hx => hm x (by simp [hx])
      exact ⟨o0 ++ o', .cons (h.mono fun x hx => hm x (by simp [hx])) h4, (h5.append_left o0).trans (swap os')⟩

/-! ## Releasing -/

theorem keep_of_without {h0 m m' : Mem} {a b : List Nat} (o : Owned h0 m (a ++ b)) (e : m' = without m a) : ∀ x ∈ b, m' x = m x := by
  intro x hx
  rw [e]
  exact without_other _ fun ha => (List.nodup_append.1 o.nodup).2.2 x ha x hx rfl

theorem freeConn_keep {h0 : Mem} {h : Heap} {c : Conn.HConn} {rl ro lud lo rest}
    (hr : StrArr h.mem c.relays c.count rl ro) (hl : OptS h.mem c.lud16 lud lo)
    (o : Owned h0 h.mem ((ro ++ (lo ++ [c.self])) ++ rest)) :
    ∃ h', Conn.freeConn c h = some ((), h') ∧ Owned h0 h'.mem rest ∧ ∀ x ∈ rest, h'.mem x = h.mem x := by
  have o : Owned h0 h.mem (ro ++ (lo ++ (c.self :: rest))) := by simpa using o
  unfold Conn.freeConn
  obtain ⟨h1, e1, m1, o1⟩ := o.freeStrings hr
  have k1 := keep_of_without o m1
  obtain ⟨h2, e2, m2, o2⟩ := o1.freeOpt (hl.mono fun a ha => k1 a (by simp [ha]))
  have k2 := keep_of_without o1 m2
  obtain ⟨h3, e3, m3, o3⟩ := o2.free
  have k3 := keep_of_without (a := [c.self]) o2 m3
  rw [bind_at e1, bind_at e2]
  exact ⟨h3, e3, o3, fun x hx => by rw [k3 x hx, k2 x (by simp [hx]), k1 x (by simp [hx])]⟩

theorem freeNames {h0 : Mem} (a : Nat) (tail : List (Option Nat)) : ∀ (qs pre : List (Option Nat)) (h : Heap) (rest : List Nat),
    h.mem a = some (.ptrs (pre ++ qs ++ tail)) → a ∈ rest → Owned h0 h.mem (qs.filterMap id ++ rest) →
    ∃ h', freePtrs (some a) qs.length pre.length h = some ((), h') ∧ Owned h0 h'.mem rest ∧ ∀ x ∈ rest, h'.mem x = h.mem x := by
  intro qs
  induction qs with
  | nil => intro pre h rest _ _ o; exact ⟨h, rfl, o, fun _ _ => rfl⟩
  | cons q qs ih =>
    intro pre h rest ha hr o
    have hq : (pre ++ q :: qs ++ tail)[pre.length]? = some q := by simp
    simp only [List.length_cons, freePtrs]
    rw [bind_at (loadPtr_at ha hq)]
    have o' : Owned h0 h.mem (q.toList ++ (qs.filterMap id ++ rest)) := by
      cases q with
      | none => simpa using o
      | some b => simpa using o
    obtain ⟨h1, e1, o1, k1⟩ := freeP o'
    rw [bind_at e1]
    obtain ⟨h2, e2, o2, k2⟩ := ih (pre ++ [q]) h1 rest (by rw [k1 a (by simp [hr]), ha]; simp) hr o1
    rw [List.length_append, List.length_singleton] at e2
    exact ⟨h2, e2, o2, fun x hx => by rw [k2 x hx, k1 x (by simp [hx])]⟩

theorem release_ok {P : Prop} {h0 : Mem} {h : Heap} {s : HSlot} {own rest : List Nat} (hs : SlotOwn P h.mem s own)
    (o : Owned h0 h.mem (own ++ rest)) :
    ∃ h', release s h = some (⟨Session.release s.val, none, none⟩, h') ∧ Owned h0 h'.mem rest ∧ ∀ x ∈ rest, h'.mem x = h.mem x := by
  obtain ⟨⟨co, ao, rfl, hc, ha⟩, -, -⟩ := hs
  rw [List.append_assoc] at o
  unfold release
  have s1 : ∃ h1, freeLink s.conn h = some ((), h1) ∧
      Owned h0 h1.mem (ao ++ rest) ∧ ∀ x ∈ ao ++ rest, h1.mem x = h.mem x := by
    revert hc
    generalize s.conn = q
    intro hc
    cases hc with
    | null => exact ⟨h, rfl, o, fun _ _ => rfl⟩
    | conn hr hl => exact freeConn_keep hr hl o
  obtain ⟨h1, e1, o1, k1⟩ := s1
  rw [bind_at e1]
  have ha1 := ha.mono fun x hx => k1 x (by simp [hx])
  revert ha1
  generalize s.array = q
  generalize hp : s.val.perms = ps
  generalize s.val.cap = cp
  intro ha1
  cases ha1 with
  | null =>
    refine ⟨h1, ?_, o1, fun x hx => k1 x (by simpa using hx)⟩
    rw [bind_at (show freePtrs none [].length 0 h1 = some ((), h1) from rfl), bind_at (show free none h1 = some ((), h1) from rfl)]; rfl
  | @arr a qs ps tail harr hn =>
    obtain ⟨h2, e2, o2, k2⟩ := freeNames a tail qs [] h1 (a :: rest) (by simpa using harr) (by simp)
      (o1.perm (by rw [List.perm_iff_count]; intro b; simp only [List.count_append, List.count_cons]; omega))
    rw [← hn.length, bind_at (by simpa using e2)]
    obtain ⟨h3, e3, m3, o3⟩ := o2.free
    have k3 := keep_of_without (a := [a]) o2 m3
    rw [bind_at e3]
    exact ⟨h3, rfl, o3, fun x hx => by rw [k3 x hx, k2 x (by simp [hx]), k1 x (by simp [hx])]⟩

theorem released {P : Prop} {m : Mem} (v : Session.Slot) : SlotOwn P m ⟨Session.release v, none, none⟩ [] :=
  ⟨⟨[], [], rfl, .null, .null⟩, rfl, fun _ => ⟨rfl, rfl⟩⟩

theorem cleanup_ok {P : Prop} {h0 : Mem} (now : Int) : ∀ (ss : List HSlot) (h : Heap) (own rest : List Nat), SlotsOwn P h.mem ss own →
    Owned h0 h.mem (own ++ rest) →
    ∃ ss' h' own', cleanup now ss h = some (ss', h') ∧ ss'.map (·.val) = Session.cleanup now (ss.map (·.val)) ∧
      SlotsOwn P h'.mem ss' own' ∧ Owned h0 h'.mem (own' ++ rest) ∧ ∀ x ∈ rest, h'.mem x = h.mem x := by
  intro ss
  induction ss with
  | nil => intro h own rest hs o; cases hs; exact ⟨[], h, [], rfl, rfl, .nil, o, fun _ _ => rfl⟩
  | cons s ss ih =>
    intro h own rest hs o
    cases hs with
    | @cons _ _ os own' hs ht =>
    unfold cleanup
    rw [List.append_assoc] at o
    by_cases hb : (s.val.active && decide (s.val.expires < now)) = true
    · rw [if_pos hb]
      obtain ⟨h1, e1, o1, k1⟩ := release_ok hs o
      rw [bind_at e1]
      obtain ⟨ss', h2, own2, e2, v2, so2, o2, k2⟩ := ih h1 own' rest (ht.mono fun x hx => k1 x (by simp [hx])) o1
      rw [bind_at e2]
      refine ⟨_, h2, [] ++ own2, rfl, ?_, .cons (released s.val) so2, o2, fun x hx => by rw [k2 x hx, k1 x (by simp [hx])]⟩
      simp only [List.map_cons, Session.cleanup, hb, if_true]
      simp only [Session.cleanup] at v2
      rw [v2]
    · rw [if_neg hb, bind_at (show M.pure s h = some (s, h) from rfl)]
      obtain ⟨ss', h2, own2, e2, v2, so2, o2, k2⟩ := ih h own' (os ++ rest) ht
        (o.perm (by rw [List.perm_iff_count]; intro b; simp only [List.count_append]; omega))
      rw [bind_at e2]
      refine ⟨_, h2, os ++ own2, rfl, ?_, .cons (hs.mono fun x hx => k2 x (by simp [hx])) so2,
        o2.perm (by rw [List.perm_iff_count]; intro b; simp only [List.count_append]; omega), fun x hx => k2 x (by simp [hx])⟩
      simp only [List.map_cons, Session.cleanup, hb]
      simp only [Session.cleanup] at v2
      rw [v2]; rfl

/-! ## Permissions -/

theorem Names.set {P : Prop} {m : Mem} {qs ps} (h : Names P m qs ps) : ∀ (i : Nat) (p p' : Session.Perm), ps[i]? = some p → p'.name = p.name →
    Names P m qs (ps.set i p') := by
  induction h with
  | nil => intro i p p' h; simp at h
  | @copy a p0 qs ps h t ih =>
    intro i p p' hi hn
    cases i with
    | zero => simp only [List.getElem?_cons_zero, Option.some.injEq] at hi; subst hi; exact .copy (by rw [hn]; exact h) t
    | succ i => exact .copy h (ih i p p' (by simpa using hi) hn)
  | @null p0 qs ps h t ih =>
    intro i p p' hi hn
    cases i with
    | zero => exact .null h t
    | succ i => exact .null h (ih i p p' (by simpa using hi) hn)

theorem PermArr.set {P : Prop} {m : Mem} {q ps c o} (h : PermArr P m q ps c o) {i : Nat} {p p' : Session.Perm} (hi : ps[i]? = some p)
    (hn : p'.name = p.name) : PermArr P m q (ps.set i p') c o := by
  cases h with
  | null => simp at hi
  | arr ha hs => exact .arr ha (hs.set i p p' hi hn)

theorem search_names {P : Prop} (a : Nat) (method : Bytes) (tail : List (Option Nat)) {h : Heap} {qs : List (Option Nat)} {ps : List Session.Perm}
    (hn : Names P h.mem qs ps) : ∀ pre : List (Option Nat), h.mem a = some (.ptrs (pre ++ qs ++ tail)) →
    (search (some a) method qs.length pre.length h = none ∧ P) ∨
    search (some a) method qs.length pre.length h = some ((ps.findIdx? (Session.applies method)).map (· + pre.length), h) := by
  induction hn with
  | nil => intro pre _; exact .inr rfl
  | @copy b p qs ps hb t ih =>
    intro pre ha
    have hq : (pre ++ some b :: qs ++ tail)[pre.length]? = some (some b) := by simp
    simp only [List.length_cons, search]
    rw [bind_at (loadPtr_at ha hq)]
    simp only
    rw [bind_at (loadStr_at hb)]
    by_cases hm : p.name = method ∨ p.name = c!"*"
    · rw [if_pos hm]
      right
      have : Session.applies method p = true := by simpa [Session.applies] using hm
      simp [List.findIdx?_cons, this, M.pure]
    · rw [if_neg hm]
      have hf : Session.applies method p = false := by
        cases hx : Session.applies method p with
        | false => rfl
        | true => exact absurd (by simpa [Session.applies] using hx) hm
      have := ih (pre ++ [some b]) (by rw [ha]; simp)
      rw [List.length_append, List.length_singleton] at this
      rcases this with h1 | h1
      · exact .inl h1
      · right
        rw [h1]
        simp only [List.findIdx?_cons, hf]
        cases List.findIdx? (Session.applies method) ps with
        | none => rfl
        | some j => simp; omega
  | @null p qs ps hp t ih =>
    intro pre ha
    left
    have hq : (pre ++ none :: qs ++ tail)[pre.length]? = some none := by simp
    simp only [List.length_cons, search]
    rw [bind_at (loadPtr_at ha hq)]
    exact ⟨rfl, hp⟩

theorem search_ok {P : Prop} {h : Heap} {q ps c o} (ha : PermArr P h.mem q ps c o) (method : Bytes) :
    (search q method ps.length 0 h = none ∧ P) ∨ search q method ps.length 0 h = some (ps.findIdx? (Session.applies method), h) := by
  cases ha with
  | null => exact .inr rfl
  | arr ha hn =>
    have := search_names _ method _ hn [] (by simpa using ha)
    rw [← hn.length]
    simpa using this

theorem spendFirst_eq (now : Int) (method : Bytes) (amount : Nat) (ps : List Session.Perm) :
    Session.spendFirst now method amount ps = match ps.findIdx? (Session.applies method) with
      | none => (ps, false)
      | some i => match ps[i]? with
        | none => (ps, false)
        | some p => (ps.set i (Session.spend now amount p).1, (Session.spend now amount p).2) := by
  induction ps with
  | nil => rfl
  | cons p ps ih =>
    unfold Session.spendFirst
    by_cases hp : Session.applies method p = true
    · simp [hp, List.findIdx?_cons]
    · simp only [hp, List.findIdx?_cons]
      rw [ih]
      cases hf : List.findIdx? (Session.applies method) ps with
      | none => rfl
      | some i =>
        simp only [Bool.false_eq_true, if_false, Option.map_some, List.getElem?_cons_succ]
        cases ps[i]? with
        | none => rfl
        | some q => rfl

theorem spend_name (now : Int) (amount : Nat) (p : Session.Perm) : (Session.spend now amount p).1.name = p.name := by
  simp only [Session.spend, Session.renew]
  split <;> split <;> rfl

theorem check_ok {P : Prop} {h : Heap} {s : HSlot} {own : List Nat} (hs : SlotOwn P h.mem s own) (now : Int) (method : Bytes) (amount : Nat) :
    (check now method amount s h = none ∧ P) ∨
    ∃ s' r, check now method amount s h = some ((s', r), h) ∧ SlotOwn P h.mem s' own ∧ s'.val.active = s.val.active ∧
      Session.check now method amount s.val = (s'.val, r) := by
  unfold check Session.check
  obtain ⟨⟨co, ao, rfl, hc, ha⟩, hcc, hi⟩ := hs
  by_cases hx : s.val.expires < now
  · rw [if_pos hx, if_pos hx]
    exact .inr ⟨s, .bad, rfl, ⟨⟨co, ao, rfl, hc, ha⟩, hcc, hi⟩, rfl, rfl⟩
  · rw [if_neg hx, if_neg hx]
    rcases search_ok ha method with ⟨h1, hp⟩ | h1
    · left
      exact ⟨by unfold M.bind; rw [h1]; rfl, hp⟩
    · right
      rw [bind_at h1, spendFirst_eq]
      cases hf : s.val.perms.findIdx? (Session.applies method) with
      | none => exact ⟨_, _, rfl, ⟨⟨co, ao, rfl, hc, ha⟩, hcc, hi⟩, rfl, rfl⟩
      | some i =>
        obtain ⟨p, hg⟩ : ∃ p, s.val.perms[i]? = some p := by
          have := (List.findIdx?_eq_some_iff_getElem.1 hf).1
          exact ⟨_, List.getElem?_eq_getElem this⟩
        simp only [hg]
        exact ⟨_, _, rfl, ⟨⟨co, ao, rfl, hc, ha.set hg (spend_name now amount p)⟩, hcc, hi⟩, rfl, rfl⟩

theorem Names.push {P : Prop} {m : Mem} {qs ps} (h : Names P m qs ps) {q : Option Nat} {p : Session.Perm}
    (hq : match q with | none => P | some a => m a = some (.str p.name)) : Names P m (qs ++ [q]) (ps ++ [p]) := by
  induction h with
  | nil => cases q with
    | none => exact .null hq .nil
    | some a => exact .copy hq .nil
  | copy h _ ih => exact .copy h ih
  | null h _ ih => exact .null h ih

/-- Put a permission into an array that has a block. -/
theorem push_ok {A : Alloc} (hA : Fresh A) {h0 : Mem} {h : Heap} {a : Nat} {ps : List Session.Perm} {cap : Nat} {ao rest : List Nat}
    (ha : PermArr (Refused A h0) h.mem (some a) ps (some cap) ao) (o : Owned h0 h.mem (ao ++ rest)) (p : Session.Perm) :
    (M.bind (alloc A (.str p.name)) (fun q => storePtr a ps.length q) h = none ∧ cap ≤ ps.length) ∨
    ∃ h' ao', M.bind (alloc A (.str p.name)) (fun q => storePtr a ps.length q) h = some ((), h') ∧ ps.length < cap ∧
      PermArr (Refused A h0) h'.mem (some a) (ps ++ [p]) (some cap) ao' ∧ Owned h0 h'.mem (ao' ++ rest) ∧ ∀ x ∈ rest, h'.mem x = h.mem x := by
  cases ha with
  | @arr _ qs _ tail harr hn =>
  -- the copy of the name
  have s1 : ∃ q h1, alloc A (.str p.name) h = some (q, h1) ∧ Owned h0 h1.mem (q.toList ++ ((a :: qs.filterMap id) ++ rest)) ∧
      (match q with | none => Refused A h0 | some b => h1.mem b = some (.str p.name)) ∧
      ∀ x ∈ (a :: qs.filterMap id) ++ rest, h1.mem x = h.mem x := by
    rcases allocP hA o (.str p.name) with ⟨h1, e1, m1, f1⟩ | ⟨b, h1, e1, m1, o1, k1⟩
    · exact ⟨none, h1, e1, by rw [m1]; exact o, f1, fun x _ => by rw [m1]⟩
    · exact ⟨some b, h1, e1, o1, m1, k1⟩
  obtain ⟨q, h1, e1, o1, hq, k1⟩ := s1
  rw [bind_at e1]
  have harr1 : h1.mem a = some (.ptrs (qs ++ tail)) := by rw [k1 a (by simp), harr]
  by_cases hroom : ps.length < qs.length + tail.length
  · right
    rw [storePtr_at harr1 (by rw [List.length_append]; exact hroom)]
    have hnq : a ∉ q.toList := fun hm => (List.nodup_append.1 o1.nodup).2.2 a hm a (by simp) rfl
    have hna : a ∉ qs.filterMap id ++ rest := by
      have := (List.nodup_append.1 o1.nodup).2.1
      simp only [List.cons_append, List.nodup_cons] at this
      exact this.1
    obtain ⟨t0, tail', rfl⟩ : ∃ t0 tail', tail = t0 :: tail' := by
      cases tail with
      | nil => rw [hn.length] at hroom; simp at hroom
      | cons t0 tail' => exact ⟨t0, tail', rfl⟩
    have hset : (qs ++ t0 :: tail').set ps.length q = (qs ++ [q]) ++ tail' := by
      rw [← hn.length]; simp
    refine ⟨_, a :: (qs ++ [q]).filterMap id, rfl, hroom, ?_, ?_, ?_⟩
    · have hcap : qs.length + (t0 :: tail').length = (qs ++ [q]).length + tail'.length := by simp; omega
      rw [hcap]
      refine .arr ?_ (Names.push (hn.mono fun x hx => ?_) ?_)
      · simp only [upd_same, hset]
      · show upd h1.mem a _ x = h.mem x
        rw [upd_other _ _ (by rintro rfl; exact hna (by simp [hx])), k1 x (by simp [hx])]
      · cases q with
        | none => exact hq
        | some b => exact (upd_other _ _ (by rintro rfl; exact hnq (by simp))).trans hq
    · refine (o1.write (c := a) (by simp) _).perm ?_
      rw [List.perm_iff_count]; intro b
      cases q <;> simp [List.count_append, List.count_cons] <;> omega
    · intro x hx
      show upd h1.mem a _ x = h.mem x
      rw [upd_other _ _ (by rintro rfl; exact hna (by simp [hx])), k1 x (by simp [hx])]
  · left
    refine ⟨?_, by omega⟩
    unfold storePtr
    rw [harr1]
    simp only [List.length_append]
    rw [if_neg hroom]

theorem bind_assoc {α β γ} (m : M α) (f : α → M β) (g : β → M γ) (h : Heap) :
    M.bind m (fun x => M.bind (f x) g) h = M.bind (M.bind m f) g h := by
  unfold M.bind
  cases m h <;> rfl

theorem bind_none {α β} {m : M α} {f : α → M β} {h : Heap} (e : m h = none) : M.bind m f h = none := by
  unfold M.bind; rw [e]; rfl

theorem add_ok {A : Alloc} (hA : Fresh A) {h0 : Mem} {h : Heap} {s : HSlot} {own rest : List Nat} (hs : SlotOwn (Refused A h0) h.mem s own)
    (o : Owned h0 h.mem (own ++ rest)) (hact : s.val.active = true) (max : Nat) (now : Int) (name : Bytes) (limit interval : Nat) :
    (add A max now name limit interval s h = none ∧ Session.add max now name limit interval s.val = .ub) ∨
    ∃ s' r h' own', add A max now name limit interval s h = some ((s', r), h') ∧ SlotOwn (Refused A h0) h'.mem s' own' ∧
      Owned h0 h'.mem (own' ++ rest) ∧ (∀ x ∈ rest, h'.mem x = h.mem x) ∧
      (Refused A h0 ∨ Session.add max now name limit interval s.val = .ok (s'.val, r)) := by
  unfold add Session.add
  by_cases hfull : s.val.perms.length ≥ max
  · rw [if_pos hfull, if_pos hfull]
    exact .inr ⟨s, _, h, own, rfl, hs, o, fun _ _ => rfl, .inr rfl⟩
  · rw [if_neg hfull, if_neg hfull]
    obtain ⟨⟨co, ao, rfl, hc, ha⟩, hcc, hi⟩ := hs
    have hoo : Owned h0 h.mem (ao ++ (co ++ rest)) := o.perm (by rw [List.perm_iff_count]; intro b; simp only [List.count_append]; omega)
    -- the array
    have hkey : ∀ (a cap : Nat) (h1 : Heap) (ao1 : List Nat), PermArr (Refused A h0) h1.mem (some a) s.val.perms (some cap) ao1 →
        Owned h0 h1.mem (ao1 ++ (co ++ rest)) → (∀ x ∈ co ++ rest, h1.mem x = h.mem x) → s.val.cap.getD max = cap →
        (M.bind (alloc A (.str name)) (fun q => M.bind (storePtr a s.val.perms.length q) fun _ =>
            M.pure ((⟨{ s.val with perms := s.val.perms ++ [⟨name, limit, now + interval, interval, 0⟩], cap := some cap }, s.conn, some a⟩ : HSlot), Session.Ret.ok)) h1 = none ∧
          (if s.val.perms.length ≥ s.val.cap.getD max then Res.ub else
            Res.ok (({ s.val with cap := some (s.val.cap.getD max), perms := s.val.perms ++ [(⟨name, limit, now + interval, interval, 0⟩ : Session.Perm)] } : Session.Slot), Session.Ret.ok)) = .ub) ∨
        ∃ s' r h' own', M.bind (alloc A (.str name)) (fun q => M.bind (storePtr a s.val.perms.length q) fun _ =>
            M.pure ((⟨{ s.val with perms := s.val.perms ++ [⟨name, limit, now + interval, interval, 0⟩], cap := some cap }, s.conn, some a⟩ : HSlot), Session.Ret.ok)) h1 = some ((s', r), h') ∧
          SlotOwn (Refused A h0) h'.mem s' own' ∧ Owned h0 h'.mem (own' ++ rest) ∧ (∀ x ∈ rest, h'.mem x = h.mem x) ∧
          (Refused A h0 ∨ (if s.val.perms.length ≥ s.val.cap.getD max then Res.ub else
            Res.ok (({ s.val with cap := some (s.val.cap.getD max), perms := s.val.perms ++ [(⟨name, limit, now + interval, interval, 0⟩ : Session.Perm)] } : Session.Slot), Session.Ret.ok)) = .ok (s'.val, r)) := by
      intro a cap h1 ao1 ha1 o1 k1 hcap
      rw [bind_assoc]
      rcases push_ok hA ha1 o1 ⟨name, limit, now + interval, interval, 0⟩ with ⟨h2, h3⟩ | ⟨h2, ao2, e2, hlt, ha2, o2, k2⟩
      · left
        exact ⟨bind_none h2, by rw [if_pos (by rw [hcap]; exact h3)]⟩
      · right
        rw [bind_at e2]
        refine ⟨_, _, h2, co ++ ao2, rfl, ⟨⟨co, ao2, rfl, hc.mono fun x hx => ?_, ha2⟩, hcc, fun hf => ?_⟩, ?_, ?_, .inr ?_⟩
        · rw [k2 x (by simp [hx]), k1 x (by simp [hx])]
        · simp only [hact] at hf; exact absurd hf (by simp)
        · exact o2.perm (by rw [List.perm_iff_count]; intro b; simp only [List.count_append]; omega)
        · exact fun x hx => by rw [k2 x (by simp [hx]), k1 x (by simp [hx])]
        · rw [if_neg (by rw [hcap]; omega), hcap]
    cases harr : s.array with
    | some a =>
      simp only
      rw [bind_at (show M.pure (some a, s.val.cap) h = some ((some a, s.val.cap), h) from rfl)]
      simp only
      rw [harr] at ha
      revert ha
      generalize hcv : s.val.cap = cv
      intro ha
      cases cv with
      | none => cases ha
      | some cap => rw [hcv] at hkey; exact hkey a cap h ao ha hoo (fun _ _ => rfl) rfl
    | none =>
      simp only
      rw [harr] at ha
      have hnull : s.val.perms = [] ∧ s.val.cap = none ∧ ao = [] := by
        revert ha
        generalize s.val.perms = ps
        generalize s.val.cap = cv
        intro ha
        cases ha
        exact ⟨rfl, rfl, rfl⟩
      obtain ⟨hp, hcv, rfl⟩ := hnull
      rcases allocP hA hoo (.ptrs (List.replicate max none)) with ⟨h1, e1, m1, f1⟩ | ⟨a, h1, e1, m1, o1, k1⟩
      · right
        rw [bind_at (show M.bind _ _ h = some ((none, some max), h1) by rw [bind_at e1]; rfl)]
        exact ⟨s, _, h1, co ++ [], rfl, ⟨⟨co, [], rfl, by rw [m1]; exact hc, by rw [harr, hp, hcv]; exact .null⟩, hcc, hi⟩, by rw [m1]; exact o,
          fun x _ => by rw [m1], .inl f1⟩
      · rw [bind_at (show M.bind _ _ h = some ((some a, some max), h1) by rw [bind_at e1]; rfl)]
        refine hkey a max h1 [a] ?_ o1 (fun x hx => k1 x (by simpa using hx)) (by rw [hcv]; rfl)
        have := PermArr.arr (P := Refused A h0) (m := h1.mem) (a := a) (qs := []) (ps := []) (rest := List.replicate max none) (by simpa using m1) .nil
        rw [hp]
        simpa using this

/-- The part of a call under the lock of the slot. -/
theorem body_ok {A : Alloc} (hA : Fresh A) {h0 : Mem} {h : Heap} {s : HSlot} {own rest : List Nat} (hs : SlotOwn (Refused A h0) h.mem s own)
    (o : Owned h0 h.mem (own ++ rest)) (max : Nat) (now : Int) (r : Session.Req) (hact : (∃ n l i, r = .add n l i) → s.val.active = true) :
    (body A max now r s h = none ∧ (Refused A h0 ∨ Session.body max now r s.val = .ub)) ∨
    ∃ s' q h' own', body A max now r s h = some ((s', q), h') ∧ SlotOwn (Refused A h0) h'.mem s' own' ∧
      Owned h0 h'.mem (own' ++ rest) ∧ (∀ x ∈ rest, h'.mem x = h.mem x) ∧
      (Refused A h0 ∨ Session.body max now r s.val = .ok (s'.val, q)) := by
  cases r with
  | add n l i =>
    rcases add_ok hA hs o (hact ⟨n, l, i, rfl⟩) max now n l i with ⟨h1, h2⟩ | h1
    · exact .inl ⟨h1, .inr h2⟩
    · exact .inr h1
  | check m a =>
    rcases check_ok hs now m a with ⟨h1, h2⟩ | ⟨s', q, e, hs', -, hv⟩
    · exact .inl ⟨h1, .inl h2⟩
    · exact .inr ⟨s', q, h, own, e, hs', o, fun _ _ => rfl, .inr (by simp only [Session.body, hv])⟩
  | get =>
    refine .inr ⟨_, _, h, own, rfl, ?_, o, fun _ _ => rfl, .inr rfl⟩
    obtain ⟨h1, h2, h3⟩ := hs
    simp only [Session.getConn]
    split
    · exact ⟨h1, h2, h3⟩
    · exact ⟨h1, h2, h3⟩
  | extend n => exact .inr ⟨_, _, h, own, rfl, ⟨hs.parts, hs.conn, hs.idle⟩, o, fun _ _ => rfl, .inr rfl⟩
  | destroy =>
    obtain ⟨h1, e1, o1, k1⟩ := release_ok hs o
    refine .inr ⟨_, _, h1, [], ?_, released s.val, o1, k1, .inr rfl⟩
    simp only [body]
    rw [bind_at e1]; rfl

end Nostr.Own.Sessions
