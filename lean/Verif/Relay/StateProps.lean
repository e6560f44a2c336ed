import Verif.Relay.State

/-! # Property C201: a relay's state is the state of its connection -/

namespace Nostr.Relay.State.Props
open Nostr Nostr.Relay.Life Nostr.Relay.State

/-! ## Specification -/

/-- There is no connection and no attempt. -/
def Down (l : Link) : Prop := l = .none

/-- Every loss in the history comes less than five seconds after the application asked for the connection that is lost. -/
def Quick (L : Lib) (os : List Op) : Prop :=
  ∀ pre o post w s t, os = pre ++ o :: post → Run L created pre w → o = .refused t ∨ o = .ended t →
    w.link = .trying s ∨ w.link = .up s → t < s + 5

/-- The service thread does nothing between the beginning of a connection and the report of it. -/
def Prompt (os : List Op) : Prop := ∀ pre o post, os = pre ++ o :: .report :: post → ∃ oc t, o = .connect oc t

/-- The application does not disconnect, and no attempt fails after it has been begun. -/
def Undisturbed (os : List Op) : Prop :=
  ∀ o ∈ os, (∀ b, o ≠ .disconnect b) ∧ ∀ oc t, o = .connect oc t → oc = .early ∨ oc = .ok

/-! ## Lemmas -/

theorem run_snoc {L : Lib} {w w2 : World} {os : List Op} {o : Op} (h : Run L w (os ++ [o]) w2) :
    ∃ w1 a, Run L w os w1 ∧ can L w1 o ∧ step L w1 o = .ok (a, w2) := by
  induction os generalizing w with
  | nil =>
    cases h with
    | cons hc hs hr => cases hr; exact ⟨w, _, .nil, hc, hs⟩
  | cons x os ih =>
    cases h with
    | cons hc hs hr =>
      obtain ⟨w1, a, h1, h2, h3⟩ := ih hr
      exact ⟨w1, a, .cons hc hs h1, h2, h3⟩

theorem run_append {L : Lib} {w w1 w2 : World} {as bs : List Op} (h1 : Run L w as w1) (h2 : Run L w1 bs w2) : Run L w (as ++ bs) w2 := by
  induction h1 with
  | nil => exact h2
  | cons hc hs _ ih => exact .cons hc hs (ih h2)

theorem run_det {L : Lib} {w w1 w2 : World} {os : List Op} (h1 : Run L w os w1) (h2 : Run L w os w2) : w1 = w2 := by
  induction h1 with
  | nil => cases h2; rfl
  | cons hc hs _ ih =>
    cases h2 with
    | cons _ hs' hr => rw [hs] at hs'; cases hs'; exact ih hr

theorem run_ind {L : Lib} {w0 : World} {P : List Op → World → Prop} (h0 : P [] w0)
    (hs : ∀ os o w a w', Run L w0 os w → P os w → can L w o → step L w o = .ok (a, w') → P (os ++ [o]) w') :
    ∀ os w, Run L w0 os w → P os w := by
  have key : ∀ w1 os w, Run L w1 os w → ∀ pre, Run L w0 pre w1 → P pre w1 → P (pre ++ os) w := by
    intro w1 os w h
    induction h with
    | nil => intro pre _ hp; rwa [List.append_nil]
    | @cons w a w' o os w'' hc hst hr ih =>
      intro pre h1 hp
      have := ih (pre ++ [o]) (run_append h1 (.cons hc hst .nil)) (hs pre o w a w' h1 hp hc hst)
      simpa using this
  intro os w h
  exact key w0 os w h [] .nil h0

/-- What always holds. -/
def Inv (L : Lib) (w : World) : Prop :=
  (∀ s, w.link = .trying s → w.st = .connecting ∧ w.handle = .live ∧ w.enabled = true ∧ w.last = s) ∧
  (∀ s, w.link = .up s → w.st = .connected ∧ w.handle = .live ∧ w.enabled = true ∧ w.last = s) ∧
  (w.st = .connected ∨ w.st = .connecting → w.handle = .live) ∧
  (L.closed = true → w.st = .connected → ∃ s, w.link = .up s) ∧
  (w.owing = true → w.handle = .live)

theorem inv_step {L : Lib} {w w' : World} {o : Op} {a : Option Err} (i : Inv L w) (hc : can L w o) (hs : step L w o = .ok (a, w')) : Inv L w' := by
  obtain ⟨st, hd, en, la, ow, to, li⟩ := w
  obtain ⟨i1, i2, i3, i4, i5⟩ := i
  simp only at i1 i2 i3 i4 i5
  cases o with
  | connect oc now =>
    simp only [step, connect] at hs
    split at hs
    · cases hs; exact ⟨i1, i2, i3, i4, i5⟩
    · rename_i hn
      have hl : li = .none := by
        cases li with
        | none => rfl
        | trying s => exact absurd (.inr (i1 s rfl).1) hn
        | up s => exact absurd (.inl (i2 s rfl).1) hn
      have ho : ow = false := hc.1
      subst hl ho
      cases oc <;> cases hs <;> simp_all [Inv]
  | report => cases hs; simp_all [Inv]
  | established =>
    obtain ⟨ht, s, hl⟩ := hc
    simp only at hl
    subst hl
    obtain ⟨j1, j2, j3, j4⟩ := i1 s rfl
    subst j2
    simp only [step, called, Link.raised, say] at hs
    cases hs
    simp_all [Inv]
  | refused now =>
    obtain ⟨ht, s, hl⟩ := hc
    simp only at hl
    subst hl
    obtain ⟨j1, j2, j3, j4⟩ := i1 s rfl
    subst j2
    simp only [step, called, lost, say] at hs
    split at hs <;> cases hs <;> simp_all [Inv]
  | ended now =>
    obtain ⟨ht, s, hl⟩ := hc
    simp only at hl
    subst hl
    obtain ⟨j1, j2, j3, j4⟩ := i2 s rfl
    subst j2
    simp only [step, called, lost, say] at hs
    split at hs
    · split at hs <;> cases hs <;> simp_all [Inv]
    · cases hs; simp_all [Inv]
  | disconnect b =>
    have ho : ow = false := hc.1
    subst ho
    simp only [step, disconnect] at hs
    cases hd with
    | null => cases hs; simp_all [Inv]
    | freed => cases hs
    | live =>
      simp only at hs
      split at hs
      · cases hs
      · cases hs; cases b <;> simp_all [Inv, say]
  | send =>
    simp only [step, send] at hs
    split at hs
    · cases hs; exact ⟨i1, i2, i3, i4, i5⟩
    · cases hd with
      | null => cases hs; exact ⟨i1, i2, i3, i4, i5⟩
      | freed => cases hs
      | live =>
        simp only at hs
        split at hs
        · cases hs; exact ⟨i1, i2, i3, i4, i5⟩
        · cases hs

theorem inv {L : Lib} {os : List Op} {w : World} (h : Run L created os w) : Inv L w :=
  run_ind (P := fun _ w => Inv L w) (by simp [Inv, created]) (fun _ _ _ _ _ _ i hc hs => inv_step i hc hs) os w h

/-! ## C201 -/

/-- **C201**: an attempt that is under way and a connection that is up are always shown as such. -/
theorem C201_shown {L : Lib} {os : List Op} {w : World} (h : Run L created os w) :
    (∀ s, w.link = .trying s → w.st = .connecting) ∧ ∀ s, w.link = .up s → w.st = .connected :=
  ⟨fun s hs => ((inv h).1 s hs).1, fun s hs => ((inv h).2.1 s hs).1⟩

/-- **C201** (partial: the websocket library reports the end of a client's connection as CLOSED, and every loss comes within five seconds of the call
that asked for the connection): the state says connected exactly while the connection is up, connecting exactly while an attempt is under way. -/
theorem C201_state_partial {L : Lib} (hL : L.closed = true) {os : List Op} {w : World} (h : Run L created os w) :
    (w.st = .connected ↔ ∃ s, w.link = .up s) ∧ (Quick L os → (w.st = .connecting ↔ ∃ s, w.link = .trying s)) := by
  refine ⟨⟨(inv h).2.2.2.1 hL, fun ⟨s, hs⟩ => ((inv h).2.1 s hs).1⟩, fun hq => ⟨?_, fun ⟨s, hs⟩ => ((inv h).1 s hs).1⟩⟩
  revert hq
  refine run_ind (L := L) (w0 := created) (P := fun os w => Quick L os → w.st = .connecting → ∃ s, w.link = .trying s) ?_ ?_ os w h
  · intro _ h; cases h
  · intro os o w a w' hr ih hc hs hq hst
    have hq' : Quick L os := fun pre o' post w s t he => hq pre o' (post ++ [o]) w s t (by simp [he])
    replace ih := ih hq'
    obtain ⟨i1, i2, i3, i4, i5⟩ := inv hr
    have hloss : ∀ s t, o = .refused t ∨ o = .ended t → w.link = .trying s ∨ w.link = .up s → t < s + 5 :=
      fun s t => hq os o [] w s t rfl hr
    clear hq hq'
    obtain ⟨st, hd, en, la, ow, to, li⟩ := w
    simp only at i1 i2 i3 i4 i5 ih hloss
    cases o with
    | connect oc now =>
      simp only [step, connect] at hs
      split at hs
      · cases hs; exact ih hst
      · rename_i hn
        cases oc <;> cases hs <;> simp_all
    | report => cases hs; exact ih hst
    | established =>
      obtain ⟨ht, s, hl⟩ := hc
      simp only at hl
      subst hl
      obtain ⟨j1, j2, j3, j4⟩ := i1 s rfl
      subst j2
      simp only [step, called, Link.raised, say] at hs
      cases hs
      cases hst
    | refused now =>
      obtain ⟨ht, s, hl⟩ := hc
      simp only at hl
      subst hl
      obtain ⟨j1, j2, j3, j4⟩ := i1 s rfl
      subst j2
      have := hloss s now (.inl rfl) (.inl rfl)
      simp only [step, called, lost, say] at hs
      rw [if_neg (by omega)] at hs
      cases hs
      cases hst
    | ended now =>
      obtain ⟨ht, s, hl⟩ := hc
      simp only at hl
      subst hl
      obtain ⟨j1, j2, j3, j4⟩ := i2 s rfl
      subst j2
      have := hloss s now (.inr rfl) (.inr rfl)
      simp only [step, called, lost, say, hL, if_true] at hs
      rw [if_neg (by omega)] at hs
      cases hs
      cases hst
    | disconnect b =>
      simp only [step, disconnect] at hs
      cases hd with
      | null => cases hs; exact ih hst
      | freed => cases hs
      | live =>
        simp only at hs
        split at hs
        · cases hs
        · cases hs; cases b <;> cases hst
    | send =>
      simp only [step, send] at hs
      split at hs
      · cases hs; exact ih hst
      · cases hd with
        | null => cases hs; exact ih hst
        | freed => cases hs
        | live =>
          simp only at hs
          split at hs
          · cases hs; exact ih hst
          · cases hs

/-- **C201** (partial: as before, the end of connections is reported as CLOSED): what is sent goes to a connection that is up, and is refused otherwise. -/
theorem C201_send_partial {L : Lib} (hL : L.closed = true) {os : List Op} {w : World} (h : Run L created os w) :
    ((∃ s, w.link = .up s) → step L w .send = .ok (none, w)) ∧
    ((∀ s, w.link ≠ .up s) → step L w .send = .ok (some .invalidParam, w)) := by
  obtain ⟨i1, i2, i3, i4, i5⟩ := inv h
  constructor
  · rintro ⟨s, hs⟩
    obtain ⟨j1, j2, -, -⟩ := i2 s hs
    simp [step, send, j1, j2, hs, Link.isUp]
  · intro hn
    have : w.st ≠ .connected := fun hc => by
      obtain ⟨s, hs⟩ := i4 hL hc
      exact hn s hs
    simp [step, send, this]

/-- **C201** (part): whatever has happened, as long as no attempt failed at once and the end of connections is reported as CLOSED, the application can begin
again by disconnecting (or, if there is nothing to disconnect, at once). -/
theorem C201_again_partial {L : Lib} (hL : L.closed = true) {os : List Op} {w : World} (h : Run L created os w) (ho : w.owing = false)
    (hf : w.handle ≠ .freed) (now : Int) :
    ∃ a w1 w2, step L w (.disconnect false) = .ok (a, w1) ∧ step L w1 (.connect .ok now) = .ok (none, w2) ∧ w2.st = .connecting ∧ w2.link = .trying now := by
  obtain ⟨i1, i2, i3, i4, i5⟩ := inv h
  obtain ⟨st, hd, en, la, ow, to, li⟩ := w
  simp only at i1 i2 i3 i4 i5 hf
  cases hd with
  | freed => exact absurd rfl hf
  | null =>
    have : ¬ (st = .connected ∨ st = .connecting) := fun h => by have := i3 h; cases this
    exact ⟨_, _, _, rfl, by simp only [step, connect]; rw [if_neg this], rfl, rfl⟩
  | live =>
    have : ¬ (st = .connected ∧ li.isUp = false) := by
      rintro ⟨h1, h2⟩
      obtain ⟨s, rfl⟩ := i4 hL h1
      cases h2
    refine ⟨none, ⟨.disconnected, .null, false, la, ow, to, .none⟩, ⟨.connecting, .live, true, now, true, to, .trying now⟩, ?_, ?_, rfl, rfl⟩
    · simp only [step, disconnect]
      rw [if_neg this]
      rfl
    · simp only [step, connect]
      rw [if_neg (by simp)]

/-- **C201** (partial: the service thread is idle until the connection's beginning has been reported): if the relay is connected or connecting, that is what
the callback was told last; and if the application does not disconnect and no attempt fails at once, this is so in every state. -/
theorem C201_told_partial {L : Lib} {os : List Op} {w : World} (h : Run L created os w) (hp : Prompt os) (ho : w.owing = false) :
    (w.st = .connected ∨ w.st = .connecting → w.told.head? = some w.st) ∧
    (Undisturbed os → w.told.head? = some w.st ∨ w.told = [] ∧ w.st = .disconnected) := by
  have key := run_ind (L := L) (w0 := created) (P := fun os w => Prompt os →
    (w.owing = false → (w.st = .connected ∨ w.st = .connecting → w.told.head? = some w.st) ∧
      (Undisturbed os → w.told.head? = some w.st ∨ w.told = [] ∧ w.st = .disconnected)) ∧
    (w.owing = true → ∀ pre oc t, os = pre ++ [.connect oc t] → w.st = .connecting)) ?_ ?_ os w h
  · exact (key hp).1 ho
  · intro _
    exact ⟨fun _ => ⟨by simp [created], fun _ => .inr ⟨rfl, rfl⟩⟩, fun h => by cases h⟩
  · intro os o w a w' hr ih hc hs hp
    have hp' : Prompt os := fun pre o' post he => hp pre o' (post ++ [o]) (by simp [he])
    replace ih := ih hp'
    have hu : Undisturbed (os ++ [o]) → Undisturbed os := fun h x hx => h x (by simp [hx])
    have hlast : ∀ pre oc t, os ++ [o] = pre ++ [.connect oc t] → o = .connect oc t := by
      intro pre oc t he
      have := congrArg List.getLast? he
      simpa using this
    obtain ⟨i1, i2, i3, i4, i5⟩ := inv hr
    cases o with
    | connect oc now =>
      have ho := hc.1
      obtain ⟨⟨ia, ib⟩, -⟩ := And.intro (ih.1 ho) trivial
      simp only [step, connect] at hs
      split at hs
      · cases hs
        exact ⟨fun _ => ⟨ia, fun h => ib (hu h)⟩, fun h => by rw [ho] at h; cases h⟩
      · rename_i hn
        cases oc with
        | early => cases hs; exact ⟨fun _ => ⟨ia, fun h => ib (hu h)⟩, fun h => by rw [ho] at h; cases h⟩
        | mutex | client | thread =>
          cases hs
          refine ⟨fun _ => ⟨fun h => ?_, fun h => ?_⟩, fun h => ?_⟩
          · rcases h with h | h <;> cases h
          · rcases (h (.connect _ now) (List.mem_append_right _ (List.mem_singleton.2 rfl))).2 _ _ rfl with h | h <;> cases h
          · simp only [ho] at h; cases h
        | ok => cases hs; exact ⟨(fun h => by cases h), fun _ _ _ _ _ => rfl⟩
    | report =>
      cases hs
      have how : w.owing = true := hc
      have hst : w.st = .connecting := by
        rcases List.eq_nil_or_concat os with he | ⟨pre, x, he⟩
        · subst he; cases hr; cases how
        · rw [List.concat_eq_append] at he
          obtain ⟨oc, t, rfl⟩ := hp pre x [] (by simp [he])
          exact ih.2 how pre oc t he
      refine ⟨fun _ => ⟨fun _ => by simp [hst], fun _ => .inl (by simp [hst])⟩, fun h => by cases h⟩
    | established =>
      obtain ⟨ht, s, hl⟩ := hc
      obtain ⟨j1, j2, j3, j4⟩ := i1 s hl
      simp only [step, called, j2, say] at hs
      cases hs
      exact ⟨fun _ => ⟨fun _ => rfl, fun _ => .inl rfl⟩, fun _ pre oc t he => by cases hlast pre oc t he⟩
    | refused now =>
      obtain ⟨ht, s, hl⟩ := hc
      obtain ⟨j1, j2, j3, j4⟩ := i1 s hl
      simp only [step, called, j2, lost, say] at hs
      split at hs <;> cases hs <;>
        exact ⟨fun _ => ⟨fun _ => rfl, fun _ => .inl rfl⟩, fun _ pre oc t he => by cases hlast pre oc t he⟩
    | ended now =>
      obtain ⟨ht, s, hl⟩ := hc
      obtain ⟨j1, j2, j3, j4⟩ := i2 s hl
      simp only [step, called, j2, lost, say] at hs
      split at hs
      · split at hs <;> cases hs <;>
          exact ⟨fun _ => ⟨fun _ => rfl, fun _ => .inl rfl⟩, fun _ pre oc t he => by cases hlast pre oc t he⟩
      · cases hs
        exact ⟨fun h => ⟨(ih.1 h).1, fun h' => (ih.1 h).2 (hu h')⟩, fun _ pre oc t he => by cases hlast pre oc t he⟩
    | disconnect b =>
      have ho := hc.1
      simp only [step, disconnect] at hs
      cases hh : w.handle with
      | null =>
        simp only [hh] at hs
        cases hs
        exact ⟨fun h => ⟨(ih.1 h).1, fun h' => (ih.1 h).2 (hu h')⟩, fun _ pre oc t he => by cases hlast pre oc t he⟩
      | freed => simp only [hh] at hs; cases hs
      | live =>
        simp only [hh] at hs
        split at hs
        · cases hs
        · cases hs
          exact ⟨fun _ => ⟨(fun h => by rcases h with h | h <;> cases h), fun h => absurd rfl ((h (.disconnect b) (by simp)).1 b)⟩,
            fun _ pre oc t he => by cases hlast pre oc t he⟩
    | send =>
      have : w' = w := by
        simp only [step, send] at hs
        split at hs
        · cases hs; rfl
        · split at hs
          · cases hs; rfl
          · cases hs
          · split at hs
            · cases hs; rfl
            · cases hs
      subst this
      exact ⟨fun h => ⟨(ih.1 h).1, fun h' => (ih.1 h).2 (hu h')⟩, fun _ pre oc t he => by cases hlast pre oc t he⟩

/-- **C201 fails** when a connection is lost five seconds or more after it was asked for: the relay then says that it is connecting, and says so to the callback,
but nothing is under way. Whatever happens afterwards, unless the application disconnects, stays without effect: there is no connection and no attempt, nothing
is reported, and connecting is refused. -/
theorem C201_reconnect_refuted {L : Lib} {os : List Op} {w : World} (h : Run L created os w) {s t : Int} {o : Op}
    (ho : o = .refused t ∧ w.link = .trying s ∨ o = .ended t ∧ w.link = .up s ∧ L.closed = true) (hc : can L w o) (ht : s + 5 ≤ t) :
    ∃ w1, step L w o = .ok (none, w1) ∧ w1.told = .connecting :: .disconnected :: w.told ∧
      ∀ more w2, Run L w1 more w2 → (∀ b, .disconnect b ∉ more) →
        w2.st = .connecting ∧ Down w2.link ∧ (w1.owing = false → w2.told = w1.told) ∧ ∀ oc now, step L w2 (.connect oc now) = .ok (some .connection, w2) := by
  obtain ⟨i1, i2, i3, i4, i5⟩ := inv h
  have key : ∀ (w1 : World), w1.st = .connecting → w1.link = .none → w1.handle = .live → ∀ more w2, Run L w1 more w2 → (∀ b, .disconnect b ∉ more) →
      w2.st = .connecting ∧ Down w2.link ∧ (w1.owing = false → w2.told = w1.told) ∧ ∀ oc now, step L w2 (.connect oc now) = .ok (some .connection, w2) := by
    intro w1 h1 h2 h3 more w2 hr
    induction hr with
    | nil =>
      intro _
      refine ⟨h1, h2, fun _ => rfl, fun oc now => ?_⟩
      simp only [step, connect]
      rw [if_pos (.inr h1)]
    | @cons w a w' o os w'' hc hs hr ih =>
      intro hno
      have hno' : ∀ b, .disconnect b ∉ os := fun b hb => hno b (by simp [hb])
      have same : w' = w → w''.st = .connecting ∧ Down w''.link ∧ (w.owing = false → w''.told = w.told) ∧
          ∀ oc now, step L w'' (.connect oc now) = .ok (some .connection, w'') := by
        rintro rfl
        exact ih h1 h2 h3 hno'
      cases o with
      | connect oc now =>
        simp only [step, connect] at hs
        rw [if_pos (.inr h1)] at hs
        cases hs
        exact same rfl
      | report =>
        have how : w.owing = true := hc
        cases hs
        obtain ⟨j1, j2, -, j4⟩ := ih h1 h2 h3 hno'
        exact ⟨j1, j2, (fun h => by rw [how] at h; cases h), j4⟩
      | established => obtain ⟨-, s, hl⟩ := hc; rw [h2] at hl; cases hl
      | refused t => obtain ⟨-, s, hl⟩ := hc; rw [h2] at hl; cases hl
      | ended t => obtain ⟨-, s, hl⟩ := hc; rw [h2] at hl; cases hl
      | disconnect b => exact absurd (by simp) (hno b)
      | send =>
        simp only [step, send] at hs
        rw [if_pos (by rw [h1]; decide)] at hs
        cases hs
        exact same rfl
  rcases ho with ⟨rfl, hl⟩ | ⟨rfl, hl, hcl⟩
  · obtain ⟨j1, j2, j3, j4⟩ := i1 s hl
    refine ⟨{ w with st := .connecting, link := .none, last := t, told := .connecting :: .disconnected :: w.told }, ?_, rfl, key _ rfl rfl j2⟩
    simp only [step, called, j2, lost, say]
    rw [if_pos ⟨j3, by omega⟩]
  · obtain ⟨j1, j2, j3, j4⟩ := i2 s hl
    refine ⟨{ w with st := .connecting, link := .none, last := t, told := .connecting :: .disconnected :: w.told }, ?_, rfl, key _ rfl rfl j2⟩
    simp only [step, called, j2, lost, say, hcl, if_true]
    rw [if_pos ⟨j3, by omega⟩]

/-- **C201 fails** when the websocket library reports the end of a client's connection with a reason of its own: the relay says connected for ever, and sending,
subscribing or disconnecting uses a connection that no longer exists. -/
theorem C201_closed_refuted {L : Lib} (hL : L.closed = false) {os : List Op} {w : World} (h : Run L created os w) {t : Int} (hc : can L w (.ended t)) :
    ∃ w1, step L w (.ended t) = .ok (none, w1) ∧ ∀ more w2, Run L w1 more w2 →
      w2.st = .connected ∧ Down w2.link ∧ (w1.owing = false → w2.told = w1.told) ∧ step L w2 .send = .ub ∧ ∀ b, step L w2 (.disconnect b) = .ub := by
  obtain ⟨i1, i2, i3, i4, i5⟩ := inv h
  obtain ⟨-, s, hl⟩ := hc
  obtain ⟨j1, j2, j3, j4⟩ := i2 s hl
  refine ⟨{ w with link := .none }, by simp [step, hL], ?_⟩
  have key : ∀ (w1 : World) more w2, Run L w1 more w2 → w1.st = .connected → w1.link = .none → w1.handle = .live →
      w2.st = .connected ∧ Down w2.link ∧ (w1.owing = false → w2.told = w1.told) ∧ step L w2 .send = .ub ∧ ∀ b, step L w2 (.disconnect b) = .ub := by
    intro w1 more w2 hr
    induction hr with
    | nil =>
      intro h1 h2 h3
      exact ⟨h1, h2, fun _ => rfl, by simp [step, send, h1, h2, h3, Link.isUp], fun b => by simp [step, disconnect, h1, h2, h3, Link.isUp]⟩
    | @cons w a w' o os w'' hc hs hr ih =>
      intro h1 h2 h3
      cases o with
      | connect oc now =>
        simp only [step, connect] at hs
        rw [if_pos (.inl h1)] at hs
        cases hs
        exact ih h1 h2 h3
      | report =>
        have how : w.owing = true := hc
        cases hs
        obtain ⟨k1, k2, -, k4⟩ := ih h1 h2 h3
        exact ⟨k1, k2, (fun h => by rw [how] at h; cases h), k4⟩
      | established => obtain ⟨-, s, hl⟩ := hc; rw [h2] at hl; cases hl
      | refused t => obtain ⟨-, s, hl⟩ := hc; rw [h2] at hl; cases hl
      | ended t => obtain ⟨-, s, hl⟩ := hc; rw [h2] at hl; cases hl
      | disconnect b => simp [step, disconnect, h1, h2, h3, Link.isUp] at hs
      | send => simp [step, send, h1, h2, h3, Link.isUp] at hs
  exact fun more w2 hr => key _ more w2 hr j1 rfl j2

/-- **C201 fails** without threads: no history leads to a connection, or to the report that there is none. -/
theorem C201_unthreaded_refuted {L : Lib} (hL : L.threading = false) {os : List Op} {w : World} (h : Run L created os w) :
    w.st ≠ .connected ∧ St.connected ∉ w.told := by
  refine run_ind (L := L) (w0 := created) (P := fun _ w => w.st ≠ .connected ∧ St.connected ∉ w.told) ?_ ?_ os w h
  · simp [created]
  · intro os o w a w' _ ih hc hs
    cases o with
    | connect oc now =>
      simp only [step, connect] at hs
      split at hs
      · cases hs; exact ih
      · cases oc <;> cases hs <;> simp [ih.1, ih.2]
    | report => cases hs; simp [ih.1, ih.2]
    | established => have := hc.1; rw [hL] at this; cases this
    | refused t => have := hc.1; rw [hL] at this; cases this
    | ended t => have := hc.1; rw [hL] at this; cases this
    | disconnect b =>
      simp only [step, disconnect] at hs
      split at hs
      · cases hs; exact ih
      · cases hs
      · split at hs
        · cases hs
        · cases hs; cases b <;> simp [say, ih.2]
    | send =>
      simp only [step, send] at hs
      rw [if_pos ih.1] at hs
      cases hs
      exact ih

/-- **C201 fails** for the order of the reports: the service thread may report that the connection is up, or lost, before the application's thread reports that
it is connecting. -/
theorem C201_order_refuted {L : Lib} (hL : L.threading = true) :
    ∃ w, Run L created [.connect .ok 0, .established, .report] w ∧ w.st = .connected ∧ w.told = [.connecting, .connected] := by
  exact ⟨⟨.connected, .live, true, 0, false, [.connecting, .connected], .up 0⟩, .cons ⟨rfl, fun h => by cases h⟩ rfl (.cons ⟨hL, 0, rfl⟩ rfl (.cons rfl rfl .nil)), rfl, rfl⟩

/-! Non-trivial cases. -/

/-- Threads, and a websocket library that reports CLOSED. -/
def good : Lib := ⟨true, true⟩

/-- A connection that is made, lost after two seconds, made again and used. -/
def twice : List Op := [.connect .ok 100, .report, .established, .send, .ended 102, .connect .ok 110, .report, .established, .send]

theorem twice_run : Run good created twice ⟨.connected, .live, true, 110, false, [.connected, .connecting, .disconnected, .connected, .connecting], .up 110⟩ :=
  .cons ⟨rfl, fun h => by cases h⟩ rfl <| .cons rfl rfl <| .cons ⟨rfl, 100, rfl⟩ rfl <| .cons rfl rfl <| .cons ⟨rfl, 100, rfl⟩ rfl <|
  .cons ⟨rfl, fun h => by cases h⟩ rfl <| .cons rfl rfl <| .cons ⟨rfl, 110, rfl⟩ rfl <| .cons rfl rfl .nil

/-- The hypotheses of `C201_state_partial` and `C201_told_partial` are met by it. -/
example : Quick good twice ∧ Prompt twice ∧ Undisturbed twice := by
  refine ⟨?_, ?_, ?_⟩
  · intro pre o post w s t he hr ho hl
    have h4 : pre = [.connect .ok 100, .report, .established, .send] ∧ o = .ended 102 := by
      unfold twice at he
      clear hr hl
      rcases ho with rfl | rfl <;>
        rcases pre with _ | ⟨p1, _ | ⟨p2, _ | ⟨p3, _ | ⟨p4, _ | ⟨p5, _ | ⟨p6, _ | ⟨p7, _ | ⟨p8, _ | ⟨p9, p⟩⟩⟩⟩⟩⟩⟩⟩⟩ <;>
        simp at he
      obtain ⟨rfl, rfl, rfl, rfl, rfl, -⟩ := he
      exact ⟨rfl, rfl⟩
    obtain ⟨rfl, rfl⟩ := h4
    have ht : t = 102 := by rcases ho with h | h <;> cases h; rfl
    have hw := run_det hr (.cons ⟨rfl, fun h => by cases h⟩ rfl <| .cons rfl rfl <| .cons ⟨rfl, 100, rfl⟩ rfl <| .cons rfl rfl .nil)
    subst hw ht
    rcases hl with h | h <;> cases h
    decide
  · intro pre o post he
    unfold twice at he
    rcases pre with _ | ⟨p1, _ | ⟨p2, _ | ⟨p3, _ | ⟨p4, _ | ⟨p5, _ | ⟨p6, _ | ⟨p7, _ | ⟨p8, _ | ⟨p9, p⟩⟩⟩⟩⟩⟩⟩⟩⟩ <;>
      simp at he
    · exact ⟨_, _, he.1.symm⟩
    · exact ⟨_, _, he.2.2.2.2.2.1.symm⟩
  · intro o ho
    simp only [twice, List.mem_cons, List.not_mem_nil, or_false] at ho
    rcases ho with rfl | rfl | rfl | rfl | rfl | rfl | rfl | rfl | rfl <;> simp

/-- A connection that is lost after a minute. -/
example : ∃ w, Run good created [.connect .ok 100, .report, .established] w ∧ w.link = .up 100 ∧ can good w (.ended 160) :=
  ⟨⟨.connected, .live, true, 100, false, [.connected, .connecting], .up 100⟩,
    .cons ⟨rfl, fun h => by cases h⟩ rfl <| .cons rfl rfl <| .cons ⟨rfl, 100, rfl⟩ rfl .nil, rfl, rfl, 100, rfl⟩

/-- The same where the end is reported in another way. -/
example : ∃ w, Run ⟨true, false⟩ created [.connect .ok 100, .report, .established] w ∧ can ⟨true, false⟩ w (.ended 160) :=
  ⟨⟨.connected, .live, true, 100, false, [.connected, .connecting], .up 100⟩,
    .cons ⟨rfl, fun h => by cases h⟩ rfl <| .cons rfl rfl <| .cons ⟨rfl, 100, rfl⟩ rfl .nil, rfl, 100, rfl⟩

end Nostr.Relay.State.Props
