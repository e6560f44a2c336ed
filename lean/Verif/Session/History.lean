import Verif.Session.Props

/-!
# The life of a wallet session over a history of calls (C95, C96)

What the table does for one id, as seen from the calls and their answers alone: the session has a deadline, set by its
creation and moved by extensions, and a connection. It ends when it is destroyed, or when a session is created by
anybody after its deadline.
-/

namespace Nostr.Session.Spec
open Nostr Nostr.Session

/-- A session that has not ended. -/
structure Life where
  deadline : Int
  conn : Nat
  deriving DecidableEq, Repr

/-- The call concerns this id: the text begins with it. -/
def Concerns (id text : Bytes) : Prop := text.take 64 = id

instance (id text : Bytes) : Decidable (Concerns id text) := inferInstanceAs (Decidable (_ = _))

/-- What one answered call does to the session with this id. Creating any session ends the ones past their deadline, unless
the creation was refused by the rate limit. -/
def live (id : Bytes) (l : Option Life) : Ev × Ret → Option Life
  | (.create now timeout i c, ret) =>
      if ret = .ok ∧ i = some id then some ⟨now + timeout, c⟩
      else if ret = .bad then l
      else l.filter fun v => decide (now ≤ v.deadline)
  | (.call _ _ text (.extend secs), .ok) =>
      if Concerns id text then l.map fun v => { v with deadline := v.deadline + secs } else l
  | (.call _ _ text .destroy, .ok) => if Concerns id text then none else l
  | (.call .., _) => l

/-- The session with this id after the calls. -/
def life (id : Bytes) (past : List (Ev × Ret)) : Option Life := past.foldl (live id) none

/-- The session can be used. -/
def Usable (l : Option Life) (now : Int) : Prop := ∃ v, l = some v ∧ now ≤ v.deadline

/-- The answers that a call on the session may give. -/
def Answer (l : Option Life) (now : Int) : Req → Ret → Prop
  | .get, ret => (∃ v, l = some v ∧ now ≤ v.deadline ∧ ret = .conn (some v.conn)) ∨ (¬ Usable l now ∧ ret = .bad)
  | .check _ _, ret => (Usable l now ∧ (ret = .ok ∨ ret = .bad)) ∨ (¬ Usable l now ∧ ret = .bad)
  | .extend _, ret => ret = if l = none then .bad else .ok
  | .destroy, ret => ret = if l = none then .bad else .ok
  | .add .., ret => if l = none then ret = .bad else ret = .ok ∨ ret = .memory

/-- How often this id is given out. -/
def handed (id : Bytes) (es : List Ev) : Nat :=
  es.countP fun e => match e with | .create _ _ (some i) _ => decide (i = id) | _ => false

end Nostr.Session.Spec

namespace Nostr.Session.History
open Nostr Nostr.Session Nostr.Session.Spec Nostr.Session.Props

/-- The slots hold exactly this life of the id. -/
def Holds (id : Bytes) (l : Option Life) (slots : List Slot) : Prop :=
  match l with
  | none => ∀ s ∈ slots, s.active = true → s.id ≠ id
  | some v => ∃ (k : Nat) (s : Slot), slots[k]? = some s ∧ s.active = true ∧ s.id = id ∧ s.expires = v.deadline ∧ s.conn = some v.conn ∧
      ∀ (j : Nat) (s' : Slot), slots[j]? = some s' → s'.active = true → s'.id = id → j = k

theorem key_iff {id text : Bytes} (hl : id.length = 64) (h0 : (0 : UInt8) ∉ id) : (text ++ [0]).take 64 = id ↔ Concerns id text := by
  unfold Concerns
  rcases Nat.lt_or_ge text.length 64 with h | h
  · constructor
    · intro e
      have : (0 : UInt8) ∈ (text ++ [0]).take 64 := by
        rw [List.take_of_length_le (by simp; omega)]; simp
      rw [e] at this
      exact absurd this h0
    · intro e
      have := congrArg List.length e
      rw [List.length_take, hl] at this
      omega
  · rw [List.take_append_of_le_length h]

theorem holds_none {id : Bytes} {slots : List Slot} (h : Holds id none slots) {k : Nat} {s : Slot} (hk : slots[k]? = some s)
    (ha : s.active = true) : s.id ≠ id := h s (List.mem_of_getElem? hk) ha

/-- Changing a slot that is not the one of the session, and does not become one with this id. -/
theorem holds_set {id : Bytes} {l : Option Life} {slots : List Slot} (h : Holds id l slots) {k : Nat} {s q : Slot}
    (hk : slots[k]? = some s) (hs : s.active = true → s.id ≠ id) (hq : q.active = true → q.id ≠ id) : Holds id l (slots.set k q) := by
  obtain ⟨hlt, -⟩ := List.getElem?_eq_some_iff.1 hk
  cases l with
  | none =>
    intro x hx ha
    rcases List.mem_or_eq_of_mem_set hx with hx | rfl
    · exact h x hx ha
    · exact hq ha
  | some v =>
    obtain ⟨j, x, hj, ha, hi, he, hc, hu⟩ := h
    have hne : k ≠ j := by
      rintro rfl
      rw [hk] at hj
      cases hj
      exact hs ha hi
    refine ⟨j, x, by rw [List.getElem?_set_ne hne]; exact hj, ha, hi, he, hc, ?_⟩
    intro m y hm hya hyi
    by_cases hkm : k = m
    · subst hkm
      rw [List.getElem?_set_self hlt] at hm
      cases hm
      exact absurd hyi (hq hya)
    · rw [List.getElem?_set_ne hkm] at hm
      exact hu m y hm hya hyi

theorem modify_set {slots : List Slot} {k : Nat} {s : Slot} (hk : slots[k]? = some s) (f : Slot → Slot) :
    slots.modify k f = slots.set k (f s) := by
  apply List.ext_getElem?
  intro j
  rw [List.getElem?_modify, List.getElem?_set]
  by_cases h : k = j
  · subst h
    obtain ⟨hlt, -⟩ := List.getElem?_eq_some_iff.1 hk
    rw [hk]; simp [hlt]
  · simp [h]

theorem holds_cleanup {id : Bytes} {l : Option Life} {slots : List Slot} (h : Holds id l slots) (now : Int) :
    Holds id (l.filter fun v => decide (now ≤ v.deadline)) (cleanup now slots) := by
  have hget : ∀ j : Nat, (cleanup now slots)[j]? = slots[j]?.map fun s => if s.active && decide (s.expires < now) then release s else s := by
    intro j; simp [cleanup]
  have hold : ∀ (j : Nat) (s' : Slot), (cleanup now slots)[j]? = some s' → s'.active = true → slots[j]? = some s' ∧ ¬ s'.expires < now := by
    intro j s' hj ha
    rw [hget] at hj
    obtain ⟨s0, h0, rfl⟩ := Option.map_eq_some_iff.1 hj
    split at ha
    · simp [release] at ha
    · rename_i hn
      rw [if_neg hn]
      refine ⟨h0, fun hlt => hn (by simp [ha, hlt])⟩
  cases l with
  | none =>
    intro x hx ha
    obtain ⟨j, hj⟩ := List.mem_iff_getElem?.1 hx
    exact holds_none h (hold j x hj ha).1 ha
  | some v =>
    obtain ⟨k, s, hk, ha, hi, he, hc, hu⟩ := h
    by_cases hd : now ≤ v.deadline
    · simp only [Option.filter, hd, decide_true, if_true]
      refine ⟨k, s, ?_, ha, hi, he, hc, fun j s' hj ha' hi' => hu j s' (hold j s' hj ha').1 ha' hi'⟩
      rw [hget, hk]
      simp only [Option.map_some]
      rw [if_neg (by rw [he]; simp; intro; omega)]
    · simp only [Option.filter, hd, decide_false, Bool.false_eq_true, if_false]
      intro x hx hxa hxi
      obtain ⟨j, hj⟩ := List.mem_iff_getElem?.1 hx
      obtain ⟨h1, h2⟩ := hold j x hj hxa
      have := hu j x h1 hxa hxi
      subst this
      rw [hk] at h1
      cases h1
      omega

/-- Creating a session. -/
theorem create_step {id : Bytes} {l : Option Life} {t : Table} (h : Holds id l t.slots) (now : Int) (to : Nat) (i : Option Bytes) (c : Nat)
    (hf : i = some id → l = none) :
    Holds id (live id l (.create now to i c, (create now to i c t).2)) (create now to i c t).1.slots := by
  unfold create
  split
  · simp only [live]
    rw [(tick_eq now t).1]
    simpa using h
  · have hc := holds_cleanup h now
    unfold place
    cases hk : (cleanup now t.slots).findIdx? (fun s => !s.active) with
    | none => simpa [live] using hc
    | some k =>
      cases i with
      | none => simpa [live] using hc
      | some i =>
        obtain ⟨hlt, hina, -⟩ := List.findIdx?_eq_some_iff_getElem.1 hk
        have hget := List.getElem?_eq_getElem hlt
        have hina : (cleanup now t.slots)[k].active = false := by simpa using hina
        simp only [live]
        rw [modify_set hget]
        by_cases hi : i = id
        · subst hi
          have hn := hf rfl
          subst hn
          simp only [true_and, if_true]
          refine ⟨k, _, List.getElem?_set_self hlt, rfl, rfl, rfl, rfl, ?_⟩
          intro j s' hj ha hi
          refine Classical.byContradiction fun hne => ?_
          rw [List.getElem?_set_ne (fun e => hne e.symm)] at hj
          exact holds_none hc hj ha hi
        · have hi' : ¬ (some i = some id) := by simpa using hi
          simp only [hi', and_false, if_false, reduceCtorEq]
          exact holds_set hc hget (by rw [hina]; simp) (fun _ => hi)

theorem body_id {max : Nat} {now : Int} {r : Req} {s : Slot} {q : Slot × Ret} (h : body max now r s = .ok q) : q.1.id = s.id := by
  cases r <;> simp only [body, add, check, getConn, extend, release] at h
  · split at h
    · cases h; rfl
    · split at h <;> cases h; rfl
  · split at h <;> cases h <;> rfl
  · split at h <;> cases h <;> rfl
  · cases h; rfl
  · cases h; rfl

theorem live_bad (id : Bytes) (l : Option Life) (mx : Nat) (now : Int) (text : Bytes) (r : Req) : live id l (.call mx now text r, .bad) = l := by
  cases r <;> rfl

theorem live_other {id text : Bytes} (hn : ¬ Concerns id text) (l : Option Life) (mx : Nat) (now : Int) (r : Req) (ret : Ret) :
    live id l (.call mx now text r, ret) = l := by
  cases r <;> cases ret <;> simp [live, hn]

/-- A call on the slot of the session. -/
theorem body_step {id text : Bytes} (hct : Concerns id text) {v : Life} {slots : List Slot} {k : Nat} {s : Slot} (hk : slots[k]? = some s)
    (ha : s.active = true) (hi : s.id = id) (he : s.expires = v.deadline) (hc : s.conn = some v.conn)
    (hu : ∀ (j : Nat) (s' : Slot), slots[j]? = some s' → s'.active = true → s'.id = id → j = k) {mx : Nat} {now : Int} {r : Req} {q : Slot × Ret}
    (h : body mx now r s = .ok q) : Holds id (live id (some v) (.call mx now text r, q.2)) (slots.set k q.1) ∧ Answer (some v) now r q.2 := by
  obtain ⟨hlt, -⟩ := List.getElem?_eq_some_iff.1 hk
  have hset : ∀ (w : Life) (x : Slot), x.active = true → x.id = id → x.expires = w.deadline → x.conn = some w.conn →
      Holds id (some w) (slots.set k x) := by
    intro w x h1 h2 h3 h4
    refine ⟨k, x, List.getElem?_set_self hlt, h1, h2, h3, h4, ?_⟩
    intro j s' hj hja hji
    refine Classical.byContradiction fun hne => ?_
    rw [List.getElem?_set_ne (fun e => hne e.symm)] at hj
    exact hne (hu j s' hj hja hji)
  have hus : ∀ n : Int, Usable (some v) n ↔ n ≤ v.deadline := by
    intro n
    constructor
    · rintro ⟨w, hw, hn⟩; cases hw; exact hn
    · intro hn; exact ⟨v, rfl, hn⟩
  cases r with
  | add n l i =>
    simp only [body, add] at h
    split at h
    · cases h
      exact ⟨hset v s ha hi he hc, by simp [Answer]⟩
    · split at h
      · cases h
      · cases h
        exact ⟨hset v _ ha hi he hc, by simp [Answer]⟩
  | check m a =>
    simp only [body, check] at h
    split at h
    · rename_i hx
      cases h
      exact ⟨hset v s ha hi he hc, Or.inr ⟨by rw [hus]; omega, rfl⟩⟩
    · rename_i hx
      cases h
      refine ⟨?_, Or.inl ⟨by rw [hus]; omega, ?_⟩⟩
      · have : ∀ ret, live id (some v) (.call mx now text (.check m a), ret) = some v := by intro ret; cases ret <;> rfl
        rw [this]
        exact hset v _ ha hi he hc
      · simp only; split <;> simp
  | get =>
    simp only [body, getConn] at h
    split at h
    · cases h
      exact ⟨hset v s ha hi he hc, Or.inr ⟨by rw [hus]; omega, rfl⟩⟩
    · cases h
      exact ⟨hset v _ ha hi he hc, Or.inl ⟨v, rfl, by omega, by rw [hc]⟩⟩
  | extend n =>
    simp only [body, extend] at h
    cases h
    refine ⟨?_, by simp [Answer]⟩
    simp only [live, if_pos hct, Option.map_some]
    exact hset _ _ ha hi (by simp [he]) hc
  | destroy =>
    simp only [body] at h
    cases h
    refine ⟨?_, by simp [Answer]⟩
    simp only [live, if_pos hct]
    intro x hx hxa hxi
    obtain ⟨j, hj⟩ := List.mem_iff_getElem?.1 hx
    by_cases hkj : k = j
    · subst hkj
      rw [List.getElem?_set_self hlt] at hj
      cases hj
      simp [release] at hxa
    · rw [List.getElem?_set_ne hkj] at hj
      exact hkj (hu j x hj hxa hxi).symm

/-- A call by id. -/
theorem call_step {id : Bytes} (hl : id.length = 64) (h0 : (0 : UInt8) ∉ id) {l : Option Life} {t : Table} (h : Holds id l t.slots)
    {mx : Nat} {now : Int} {text : Bytes} {r : Req} {p : Table × Ret} (hp : call mx now text r t = .ok p) :
    Holds id (live id l (.call mx now text r, p.2)) p.1.slots ∧ (Concerns id text → Answer l now r p.2) := by
  unfold call findSlot at hp
  split at hp
  · cases hp
  simp only [Res.bind_ok] at hp
  cases hf : t.slots.findIdx? (fun s => s.active && decide (s.id = (text ++ [0]).take 64)) with
  | none =>
    rw [hf] at hp
    cases hp
    rw [live_bad]
    refine ⟨h, fun hct => ?_⟩
    have hkey := (key_iff hl h0).2 hct
    cases l with
    | none => cases r <;> simp [Answer, Usable]
    | some v =>
      obtain ⟨k, s, hk, ha, hi, -⟩ := h
      have := List.findIdx?_eq_none_iff.1 hf s (List.mem_of_getElem? hk)
      rw [hkey] at this
      simp [ha, hi] at this
  | some k =>
    rw [hf] at hp
    obtain ⟨hlt, hact, -⟩ := List.findIdx?_eq_some_iff_getElem.1 hf
    have hget := List.getElem?_eq_getElem hlt
    simp only [hget] at hp
    rw [Res.bind_eq_ok] at hp
    obtain ⟨q, hq, hp⟩ := hp
    cases hp
    simp only [Bool.and_eq_true, decide_eq_true_eq] at hact
    by_cases hct : Concerns id text
    · have hkey := (key_iff hl h0).2 hct
      rw [hkey] at hact
      cases l with
      | none => exact absurd hact.2 (holds_none h hget hact.1)
      | some v =>
        obtain ⟨j, s, hj, ha, hi, he, hc, hu⟩ := h
        have := hu k _ hget hact.1 hact.2
        subst this
        rw [hget] at hj
        cases hj
        have hb := body_step hct hget ha hi he hc hu hq
        exact ⟨hb.1, fun _ => hb.2⟩
    · refine ⟨?_, fun hc => absurd hc hct⟩
      rw [live_other hct]
      have hne : t.slots[k].id ≠ id := by
        rw [hact.2]
        exact fun e => hct ((key_iff hl h0).1 e)
      exact holds_set h hget (fun _ => hne) (fun _ => by rw [body_id hq]; exact hne)

theorem history {id : Bytes} (hl : id.length = 64) (h0 : (0 : UInt8) ∉ id) (es : List Ev) :
    ∀ (l : Option Life) (t t' : Table) (rs : List (Ev × Ret)), Holds id l t.slots → (l = none ∧ handed id es ≤ 1 ∨ handed id es = 0) →
      run t es = .ok (t', rs) → Holds id (rs.foldl (live id) l) t'.slots ∧
        ∀ before mx now text r ret rest, rs = before ++ (.call mx now text r, ret) :: rest → Concerns id text →
          Answer (before.foldl (live id) l) now r ret := by
  induction es with
  | nil =>
    intro l t t' rs h _ hr
    simp only [run, Res.ok.injEq, Prod.mk.injEq] at hr
    obtain ⟨rfl, rfl⟩ := hr
    refine ⟨h, ?_⟩
    intro before mx now text r ret rest hs
    cases before <;> simp at hs
  | cons e es ih =>
    intro l t t' rs h hf hr
    cases e with
    | create now to i c =>
      rw [run, Res.bind_eq_ok] at hr
      obtain ⟨q, hq, hr⟩ := hr
      simp only [Res.ok.injEq, Prod.mk.injEq] at hr
      obtain ⟨rfl, rfl⟩ := hr
      have hcount : handed id (.create now to i c :: es) = handed id es + if i = some id then 1 else 0 := by
        unfold handed
        rw [List.countP_cons]
        cases i with
        | none => simp
        | some i => simp
      have hstep := create_step h now to i c (by
        intro hi
        rw [hcount, if_pos hi] at hf
        rcases hf with hf | hf
        · exact hf.1
        · omega)
      have hrest := ih _ _ _ _ hstep (by
        rw [hcount] at hf
        by_cases hi : i = some id
        · rw [if_pos hi] at hf
          right
          rcases hf with hf | hf <;> omega
        · rw [if_neg hi] at hf
          rcases hf with hf | hf
          · left
            refine ⟨?_, by omega⟩
            rw [hf.1]
            simp [live, hi]
          · right; omega) hq
      refine ⟨hrest.1, ?_⟩
      intro before mx nw text r ret rest hs hct
      cases before with
      | nil => simp at hs
      | cons b before =>
        simp only [List.cons_append, List.cons.injEq] at hs
        rw [List.foldl_cons, ← hs.1]
        exact hrest.2 before mx nw text r ret rest hs.2 hct
    | call mx now text r =>
      rw [run, Res.bind_eq_ok] at hr
      obtain ⟨p, hp, hr⟩ := hr
      rw [Res.bind_eq_ok] at hr
      obtain ⟨q, hq, hr⟩ := hr
      simp only [Res.ok.injEq, Prod.mk.injEq] at hr
      obtain ⟨rfl, rfl⟩ := hr
      have hcount : handed id (.call mx now text r :: es) = handed id es := by
        unfold handed
        rw [List.countP_cons]
        simp
      rw [hcount] at hf
      have hstep := call_step hl h0 h hp
      have hrest := ih _ _ _ _ hstep.1 (by
        rcases hf with hf | hf
        · left
          refine ⟨?_, hf.2⟩
          rw [hf.1]
          cases r <;> cases p.2 <;> simp [live]
        · right; exact hf) hq
      refine ⟨hrest.1, ?_⟩
      intro before mx' nw text' r' ret rest hs hct
      cases before with
      | nil =>
        simp only [List.nil_append, List.cons.injEq, Prod.mk.injEq, Ev.call.injEq] at hs
        obtain ⟨⟨⟨-, rfl, rfl, rfl⟩, rfl⟩, -⟩ := hs
        exact hstep.2 hct
      | cons b before =>
        simp only [List.cons_append, List.cons.injEq] at hs
        rw [List.foldl_cons, ← hs.1]
        exact hrest.2 before mx' nw text' r' ret rest hs.2 hct

theorem holds_init (id : Bytes) (max : Nat) : Holds id none (init max).slots := by
  intro s hs ha
  rw [List.eq_of_mem_replicate hs] at ha
  simp [Slot.empty] at ha

/-- C96 (part): over any history of calls, with any clocks, every call on a session is answered according to its life so far: it is
used only up to its deadline, which is that of its creation moved by the extensions. Missing: an extension after the deadline is
accepted as well. The id is one handed out once: 64 characters, as the random generator makes them. -/
theorem C96_life_partial (max : Nat) {id : Bytes} (hl : id.length = 64) (h0 : (0 : UInt8) ∉ id) {es : List Ev} (hf : handed id es ≤ 1)
    {t : Table} {rs before rest : List (Ev × Ret)} {mx : Nat} {now : Int} {text : Bytes} {r : Req} {ret : Ret}
    (h : run (init max) es = .ok (t, rs)) (hs : rs = before ++ (.call mx now text r, ret) :: rest) (hc : Concerns id text) :
    Answer (life id before) now r ret :=
  (history hl h0 es none _ _ _ (holds_init id max) (Or.inl ⟨rfl, hf⟩) h).2 before mx now text r ret rest hs hc

/-- C96 (part): if a session is never extended, no call that uses it succeeds after the time it was created for. -/
theorem C96_expired_history_partial (max : Nat) {id : Bytes} (hl : id.length = 64) (h0 : (0 : UInt8) ∉ id) {es : List Ev} (hf : handed id es ≤ 1)
    {t : Table} {rs before rest : List (Ev × Ret)} {mx : Nat} {now : Int} {text : Bytes} {r : Req} {ret : Ret} {created : Int} {timeout c : Nat}
    (h : run (init max) es = .ok (t, rs)) (hs : rs = before ++ (.call mx now text r, ret) :: rest) (hc : Concerns id text)
    (hcr : ∀ n to c', .create n to (some id) c' ∈ es → n = created ∧ to = timeout ∧ c' = c)
    (hx : ∀ m n text' secs, .call m n text' (.extend secs) ∈ es → ¬ Concerns id text') (hr : r = .get ∨ ∃ m a, r = .check m a)
    (hd : created + timeout < now) : ret = .bad := by
  have hans := C96_life_partial max hl h0 hf h hs hc
  have hmap : ∀ (es : List Ev) (t t' : Table) (rs : List (Ev × Ret)), run t es = .ok (t', rs) → rs.map Prod.fst = es := by
    intro es
    induction es with
    | nil => intro t t' rs h; simp only [run, Res.ok.injEq, Prod.mk.injEq] at h; rw [← h.2]; rfl
    | cons e es ih =>
      intro t t' rs h
      cases e with
      | create n to i c =>
        rw [run, Res.bind_eq_ok] at h
        obtain ⟨q, hq, h⟩ := h
        simp only [Res.ok.injEq, Prod.mk.injEq] at h
        rw [← h.2, List.map_cons, ih _ _ _ hq]
      | call m n i r =>
        rw [run, Res.bind_eq_ok] at h
        obtain ⟨p, -, h⟩ := h
        rw [Res.bind_eq_ok] at h
        obtain ⟨q, hq, h⟩ := h
        simp only [Res.ok.injEq, Prod.mk.injEq] at h
        rw [← h.2, List.map_cons, ih _ _ _ hq]
  have hm := hmap es _ _ _ h
  have hin : ∀ x ∈ before, x.1 ∈ es := by
    intro x hx
    rw [← hm, hs]
    exact List.mem_map_of_mem (by simp [hx])
  have hlife : ∀ (past : List (Ev × Ret)) (l : Option Life), (∀ x ∈ past, x.1 ∈ es) → (∀ v ∈ l, v.deadline = created + timeout) →
      ∀ v ∈ past.foldl (live id) l, v.deadline = created + timeout := by
    intro past
    induction past with
    | nil => intro l _ hv; exact hv
    | cons x past ih =>
      intro l hp hv
      refine ih _ (fun y hy => hp y (by simp [hy])) ?_
      have hx1 := hp x (by simp)
      obtain ⟨e, ret'⟩ := x
      cases e with
      | create n to i c' =>
        simp only [live]
        split
        · rename_i hh
          obtain ⟨-, rfl⟩ := hh
          obtain ⟨rfl, rfl, rfl⟩ := hcr n to c' hx1
          simp
        · split
          · exact hv
          · intro v hv'
            obtain ⟨h1, -⟩ := Option.filter_eq_some_iff.1 hv'
            exact hv v h1
      | call m n text' r' =>
        by_cases hct : Concerns id text'
        · cases r' with
          | extend secs => exact absurd hct (hx m n text' secs hx1)
          | destroy => cases ret' <;> simp only [live, if_pos hct] <;> first | exact hv | simp
          | _ => cases ret' <;> exact hv
        · rw [live_other hct]; exact hv
  have hno : ¬ Usable (life id before) now := by
    rintro ⟨v, hv, hn⟩
    have := hlife before none hin (by simp) v hv
    omega
  rcases hr with rfl | ⟨m, a, rfl⟩
  · rcases hans with ⟨v, hv, hn, -⟩ | ⟨-, hb⟩
    · exact absurd ⟨v, hv, hn⟩ hno
    · exact hb
  · rcases hans with ⟨hu, -⟩ | ⟨-, hb⟩
    · exact absurd hu hno
    · exact hb

/-- C95 (part): the connection of a session stays in place over any history of calls, until the session is destroyed or any
session is created past its deadline. Missing: a caller that still uses the connection at that time. -/
theorem C95_kept_partial (max : Nat) {id : Bytes} (hl : id.length = 64) (h0 : (0 : UInt8) ∉ id) {es : List Ev} (hf : handed id es ≤ 1)
    {t : Table} {rs : List (Ev × Ret)} (h : run (init max) es = .ok (t, rs)) {v : Life} (hv : life id rs = some v) :
    ∃ s ∈ t.slots, s.active = true ∧ s.id = id ∧ s.conn = some v.conn := by
  have := (history hl h0 es none _ _ _ (holds_init id max) (Or.inl ⟨rfl, hf⟩) h).1
  rw [show rs.foldl (live id) none = some v from hv] at this
  obtain ⟨k, s, hk, ha, hi, -, hc, -⟩ := this
  exact ⟨s, List.mem_of_getElem? hk, ha, hi, hc⟩

/-- A session that is used, extended, expires, and is given up when another one is created. -/
example : ∃ t rs, run (init 2) [.create 100 60 (some sid) 1, .call 32 150 sid .get, .call 32 150 sid (.extend 10), .call 32 165 sid .get,
      .call 32 171 sid .get, .create 171 60 (some (List.replicate 64 0x62)) 2, .call 32 171 sid (.extend 100)] = .ok (t, rs) ∧
    rs.map Prod.snd = [.ok, .conn (some 1), .ok, .conn (some 1), .bad, .ok, .bad] ∧
    life sid (rs.take 4) = some ⟨170, 1⟩ ∧ life sid (rs.take 5) = some ⟨170, 1⟩ ∧ life sid rs = none ∧
    handed sid [.create 100 60 (some sid) 1, .call 32 150 sid .get, .call 32 150 sid (.extend 10), .call 32 165 sid .get,
      .call 32 171 sid .get, .create 171 60 (some (List.replicate 64 0x62)) 2, .call 32 171 sid (.extend 100)] ≤ 1 :=
  ⟨_, _, rfl, by decide, by decide, by decide, by decide, by decide⟩

example : sid.length = 64 ∧ (0 : UInt8) ∉ sid ∧ Concerns sid sid := by decide

end Nostr.Session.History
