import Verif.Relay.Threads

/-!
# Property theorems: C174, C175

C174: the application's calls and the service thread do not use the same memory at the same time. C175: disconnecting stops the service
thread before anything is released, and always comes back.
-/

namespace Nostr.Relay.Threads.Props
open Nostr Nostr.Relay.Threads

/-! ## Specification -/

/-- A state that the two threads can reach under some schedule. -/
def Reach (s : St) : Prop := ∃ as, steps idle as = some s

/-- The next step writes this. -/
def Ins.writes (l : Loc) : Ins → Prop
  | .wr k => k = l
  | .run _ => l = .running
  | .ctxp _ => l = .ctxPtr
  | _ => False

/-- The next step reads or writes this. -/
def Ins.touches (l : Loc) : Ins → Prop
  | .rd k => k = l
  | i => Ins.writes l i

/-- The application is about to write, to use this. -/
def appWrites (s : St) (l : Loc) : Prop := ∃ i r, s.app = i :: r ∧ Ins.writes l i
def appTouches (s : St) (l : Loc) : Prop := ∃ i r, s.app = i :: r ∧ Ins.touches l i

/-- The service thread is about to write, to use this. -/
def svcWrites (s : St) (l : Loc) : Prop := ∃ i r, s.svc = .body (i :: r) ∧ Ins.writes l i
def svcTouches (s : St) (l : Loc) : Prop :=
  (s.svc = .head ∧ l = .running) ∨ (s.svc = .mid ∧ l = .ctxPtr) ∨ ∃ i r, s.svc = .body (i :: r) ∧ Ins.touches l i

/-- A data race: both threads are about to use the same memory, one of them to write it. -/
def Race (s : St) (l : Loc) : Prop := (appWrites s l ∧ svcTouches s l) ∨ (appTouches s l ∧ svcWrites s l)

/-- The service thread exists and has not returned. -/
def Active (s : St) : Prop := s.svc = .head ∨ s.svc = .mid ∨ ∃ is, s.svc = .body is

/-! ## Lemmas -/

/-- The mutex is taken and given back in turn, `h` telling whether it is held at the start. -/
def balanced : Bool → List Ins → Bool
  | h, [] => !h
  | h, .lock :: r => !h && balanced true r
  | h, .unlock :: r => h && balanced false r
  | h, .join :: r => !h && balanced h r
  | h, _ :: r => balanced h r

theorem balanced_append {a b : List Ins} (hb : balanced false b = true) : ∀ {h : Bool}, balanced h a = true → balanced h (a ++ b) = true := by
  induction a with
  | nil => intro h ha; cases h <;> simp_all [balanced]
  | cons i a ih =>
    intro h ha
    cases i <;> simp only [List.cons_append, balanced, Bool.and_eq_true] at ha ⊢ <;>
      first | exact ⟨ha.1, ih ha.2⟩ | exact ih ha

theorem balanced_flatMap {α : Type} (f : α → List Ins) (hf : ∀ x, balanced false (f x) = true) (l : List α) :
    balanced false (l.flatMap f) = true := by
  induction l with
  | nil => rfl
  | cons x l ih => rw [List.flatMap_cons]; exact balanced_append ih (hf x)

/-- What the service thread does inside the library. -/
def svcOk (i : Ins) : Bool :=
  match i with
  | .rd l => l ∈ [.handle, .state, .wsi, .rx, .subs, .ctxCb, .reconnect, .attempt]
  | .wr l => l ∈ [.lws, .state, .userCb, .ctxCb, .subs, .rx, .attempt]
  | .lock => true
  | .unlock => true
  | _ => false

/-- What the application does while the service thread may run. -/
def appOk (i : Ins) : Bool :=
  match i with
  | .rd l => l ∈ [.handle, .state, .wsi, .subs, .ctxPtr, .created]
  | .wr l => l ∈ [.lws, .userCb, .ctxCb, .subs, .reconnect, .created]
  | .run b => !b
  | .ctxp b => !b
  | .lock => true
  | .unlock => true
  | _ => false

theorem use_balanced (u : Use) : balanced false u.code = true := by cases u <;> rfl
theorem use_svc (u : Use) : u.code.all svcOk = true := by cases u <;> rfl
theorem use_app (u : Use) : u.code.all appOk = true := by cases u <;> rfl

theorem user_balanced (us : List Use) : balanced false (user us) = true := balanced_flatMap _ use_balanced us

theorem all_flatMap {α : Type} (p : Ins → Bool) (f : α → List Ins) (hf : ∀ x, (f x).all p = true) (l : List α) : (l.flatMap f).all p = true := by
  induction l with
  | nil => rfl
  | cons x l ih => rw [List.flatMap_cons, List.all_append, hf x, ih]; rfl

theorem user_svc (us : List Use) : (user us).all svcOk = true := all_flatMap _ _ use_svc us

theorem msg_balanced (m : Msg) : balanced false m.code = true := by
  cases m <;> simp only [Msg.code, List.cons_append, List.nil_append, balanced] <;> exact user_balanced _

theorem msg_svc (m : Msg) : m.code.all svcOk = true := by
  cases m <;> simp only [Msg.code, List.cons_append, List.nil_append, List.all_cons, user_svc] <;> rfl

theorem cb_balanced (c : Cb) : balanced false c.code = true := by
  cases c with
  | established us => simp only [Cb.code, List.cons_append, List.nil_append, balanced]; exact user_balanced _
  | receive ms =>
    simp only [Cb.code, List.cons_append, List.nil_append, balanced]
    exact balanced_append rfl (balanced_flatMap _ msg_balanced ms)
  | lost us again =>
    simp only [Cb.code, List.cons_append, List.nil_append, balanced, List.append_assoc]
    refine balanced_append ?_ (user_balanced us)
    cases again with
    | none => rfl
    | some vs => simp only [List.cons_append, List.nil_append, balanced]; exact user_balanced vs
  | other => rfl

theorem cb_svc (c : Cb) : c.code.all svcOk = true := by
  cases c with
  | established us => simp only [Cb.code, List.all_append, user_svc]; rfl
  | receive ms => simp only [Cb.code, List.all_append, all_flatMap _ _ msg_svc]; rfl
  | lost us again => cases again <;> simp only [Cb.code, List.all_append, user_svc] <;> rfl
  | other => rfl

theorem service_balanced (cbs : List Cb) : balanced false (service cbs) = true := by
  simp only [service, balanced]
  exact balanced_append rfl (balanced_flatMap _ cb_balanced cbs)

theorem service_svc (cbs : List Cb) : (service cbs).all svcOk = true := by
  simp only [service, List.all_cons, List.all_append, all_flatMap _ _ cb_svc]; rfl

/-- What is left of the application's call, given whether the service thread exists (`t`) and the connection does (`a`): while the
thread exists only what `appOk` allows, then the end of the call or the join, after which there is no thread. -/
def fit : Bool → Bool → List Ins → Bool
  | t, a, [] => t == a
  | false, a, .make :: r => !a && fit false true r
  | false, a, .release :: r => a && fit false false r
  | false, a, .spawn :: r => a && fit true a r
  | true, a, .join :: r => a && fit false a r
  | true, a, i :: r => appOk i && fit true a r
  | false, a, .join :: _ => false
  | false, a, .run _ :: r => a && fit false a r
  | false, a, .ctxp _ :: r => a && fit false a r
  | false, a, _ :: r => fit false a r

/-- When the join comes, `service_running` is false and `context` NULL; `f` and `g` tell whether they are so at the start. -/
def told : Bool → Bool → List Ins → Bool
  | _, _, [] => true
  | f, g, .join :: r => f && g && told f g r
  | _, g, .run b :: r => told (!b) g r
  | f, _, .ctxp b :: r => told f (!b) r
  | f, g, _ :: r => told f g r

/-- What holds in every reachable state. -/
structure Inv (s : St) : Prop where
  fit : fit (s.svc ≠ .absent) s.alive s.app = true
  app : balanced (s.holder = some .app) s.app = true
  svc : ∀ is, s.svc = .body is → is.all svcOk = true ∧ balanced (s.holder = some .svc) is = true
  free : (∀ is, s.svc ≠ .body is) → s.holder ≠ some .svc
  told : told (!s.running) (!s.context) s.app = true

theorem code_balanced (c : Call) : balanced false c.code = true := by
  rcases c with u | b | _
  · exact use_balanced u
  · cases b <;> rfl
  · rfl

theorem code_told (c : Call) (f g : Bool) : told f g c.code = true := by
  rcases c with u | b | _
  · cases u <;> rfl
  · cases b <;> rfl
  · rfl

theorem fit_all {l : List Ins} (h : l.all appOk = true) (a : Bool) : fit true a l = (true == a) := by
  induction l with
  | nil => rfl
  | cons i l ih =>
    simp only [List.all_cons, Bool.and_eq_true] at h
    cases i <;> simp only [fit, h.1, ih h.2, Bool.true_and] <;> simp [appOk] at h

theorem code_fit {s : St} (hi : fit (s.svc ≠ .absent) s.alive [] = true) {c : Call} (h : c.fits s = true) :
    fit (s.svc ≠ .absent) s.alive c.code = true := by
  simp only [fit, beq_iff_eq] at hi
  rw [hi]
  cases ha : s.alive with
  | false =>
    rcases c with u | b | _
    · cases u <;> first | rfl | (simp [Call.fits, ha] at h)
    · cases b <;> rfl
    · simp [Call.fits, ha] at h
  | true =>
    rcases c with u | b | _
    · exact (fit_all (use_app u) true)
    · simp [Call.fits, ha] at h
    · rfl

theorem inv_idle : Inv idle := ⟨rfl, rfl, fun _ h => by simp [idle] at h, fun _ => by simp [idle], rfl⟩

theorem inv_step {s t : St} {a : Act} (hi : Inv s) (h : step s a = some t) : Inv t := by
  obtain ⟨app, svc, running, context, holder, alive⟩ := s
  obtain ⟨h1, h2, h3, h4, h5⟩ := hi
  simp only at h1 h2 h3 h4 h5
  cases a with
  | call c =>
    simp only [step] at h
    split at h
    · rename_i hc
      cases h
      obtain ⟨rfl, hf⟩ := hc
      have hh : holder ≠ some .app := by intro e; subst e; simp [balanced] at h2
      refine ⟨code_fit (s := ⟨[], svc, running, context, holder, alive⟩) h1 hf, ?_, h3, h4, code_told c _ _⟩
      simp only [hh, decide_false]; exact code_balanced c
    · cases h
  | app =>
    cases app with
    | nil => simp [step] at h
    | cons i r =>
      cases i with
      | rd l =>
        cases h
        refine ⟨?_, h2, h3, h4, h5⟩
        cases ht : decide (svc ≠ .absent) <;> simp only [ht, fit, Bool.and_eq_true] at h1 ⊢
        · exact h1
        · exact h1.2
      | wr l =>
        cases h
        refine ⟨?_, h2, h3, h4, h5⟩
        cases ht : decide (svc ≠ .absent) <;> simp only [ht, fit, Bool.and_eq_true] at h1 ⊢
        · exact h1
        · exact h1.2
      | run b =>
        cases h
        refine ⟨?_, h2, h3, h4, h5⟩
        cases ht : decide (svc ≠ .absent) <;> simp only [ht, fit, Bool.and_eq_true] at h1 ⊢ <;> exact h1.2
      | ctxp b =>
        cases h
        refine ⟨?_, h2, h3, h4, h5⟩
        cases ht : decide (svc ≠ .absent) <;> simp only [ht, fit, Bool.and_eq_true] at h1 ⊢ <;> exact h1.2
      | lock =>
        simp only [step] at h
        split at h
        · rename_i hn
          subst hn
          cases h
          refine ⟨?_, ?_, ?_, ?_, h5⟩
          · cases ht : decide (svc ≠ .absent) <;> simp only [ht, fit, Bool.and_eq_true] at h1 ⊢
            · exact h1
            · exact h1.2
          · simp only [balanced, Bool.and_eq_true] at h2; exact h2.2
          · intro is e; have := h3 is e; simpa using this
          · intro _; simp
        · cases h
      | unlock =>
        simp only [step] at h
        cases h
        simp only [balanced, Bool.and_eq_true, decide_eq_true_eq] at h2
        obtain ⟨rfl, h2⟩ := h2
        refine ⟨?_, by simpa using h2, ?_, by simp, h5⟩
        · cases ht : decide (svc ≠ .absent) <;> simp only [ht, fit, Bool.and_eq_true] at h1 ⊢
          · exact h1
          · exact h1.2
        · intro is e; have := h3 is e; simpa using this
      | make =>
        cases h
        refine ⟨?_, h2, h3, h4, h5⟩
        cases ht : decide (svc ≠ .absent) <;> simp only [ht, fit, appOk, Bool.and_eq_true] at h1 ⊢
        · exact h1.2
        · simp at h1
      | release =>
        cases h
        refine ⟨?_, h2, h3, h4, h5⟩
        cases ht : decide (svc ≠ .absent) <;> simp only [ht, fit, appOk, Bool.and_eq_true] at h1 ⊢
        · exact h1.2
        · simp at h1
      | spawn =>
        cases h
        have ha : svc = .absent := by
          by_cases e : svc = .absent
          · exact e
          · simp [e, fit, appOk] at h1
        subst ha
        refine ⟨?_, h2, by simp, fun _ => h4 (by simp), h5⟩
        simp only [ne_eq, not_true_eq_false, decide_false, fit, Bool.and_eq_true] at h1
        simpa using h1.2
      | join =>
        simp only [step] at h
        split at h
        · rename_i he
          subst he
          cases h
          simp only [ne_eq, reduceCtorEq, not_false_eq_true, decide_true, fit, Bool.and_eq_true] at h1
          simp only [balanced, Bool.and_eq_true] at h2
          simp only [told, Bool.and_eq_true] at h5
          exact ⟨by simpa using h1.2, h2.2, by simp, fun _ => h4 (by simp), h5.2⟩
        · cases h
  | svc cbs =>
    cases svc with
    | absent => simp [step] at h
    | ended => simp [step] at h
    | head =>
      cases h
      have hh := h4 (by simp)
      refine ⟨?_, h2, ?_, fun _ => hh, h5⟩
      · cases running <;> exact h1
      · cases running <;> simp
    | mid =>
      cases h
      have hh := h4 (by simp)
      refine ⟨?_, h2, ?_, fun _ => hh, h5⟩
      · cases context <;> exact h1
      · cases context
        · simp
        · intro is e
          simp only [if_true, Svc.body.injEq] at e
          subst e
          simp only [hh, decide_false]
          exact ⟨service_svc cbs, service_balanced cbs⟩
    | body is =>
      have h1' : ∀ js, fit (decide (Svc.body js ≠ .absent)) alive app = true := fun js => by simpa using h1
      obtain ⟨q1, q2⟩ := h3 is rfl
      cases is with
      | nil =>
        cases h
        simp only [balanced, Bool.not_eq_true', decide_eq_false_iff_not] at q2
        exact ⟨by simpa using h1, h2, by simp, fun _ => q2, h5⟩
      | cons i r =>
        simp only [List.all_cons, Bool.and_eq_true] at q1
        cases i with
        | lock =>
          simp only [step] at h
          split at h
          · rename_i hn
            subst hn
            cases h
            simp only [balanced, Bool.and_eq_true] at q2
            refine ⟨h1' r, by simpa using h2, ?_, fun hx => absurd rfl (hx r), h5⟩
            intro js e
            cases e
            exact ⟨q1.2, by simpa using q2.2⟩
          · cases h
        | unlock =>
          simp only [step] at h
          cases h
          simp only [balanced, Bool.and_eq_true, decide_eq_true_eq] at q2
          obtain ⟨rfl, q2⟩ := q2
          refine ⟨h1' r, by simpa using h2, ?_, by simp, h5⟩
          intro js e
          cases e
          exact ⟨q1.2, by simpa using q2⟩
        | rd l => cases h; exact ⟨h1' r, h2, fun js e => by cases e; exact ⟨q1.2, q2⟩, fun hx => absurd rfl (hx r), h5⟩
        | wr l => cases h; exact ⟨h1' r, h2, fun js e => by cases e; exact ⟨q1.2, q2⟩, fun hx => absurd rfl (hx r), h5⟩
        | run b => simp [svcOk] at q1
        | ctxp b => simp [svcOk] at q1
        | make => simp [svcOk] at q1
        | release => simp [svcOk] at q1
        | spawn => simp [svcOk] at q1
        | join => simp [svcOk] at q1

theorem inv_steps {as : List Act} : ∀ {s t : St}, Inv s → steps s as = some t → Inv t := by
  induction as with
  | nil => intro s t hi h; cases h; exact hi
  | cons a as ih =>
    intro s t hi h
    simp only [steps] at h
    cases hs : step s a with
    | none => simp [hs] at h
    | some s' => rw [hs] at h; exact ih (inv_step hi hs) h

theorem Reach.inv {s : St} (h : Reach s) : Inv s := by
  obtain ⟨as, h⟩ := h
  exact inv_steps inv_idle h

theorem fit_alive : ∀ (l : List Ins) (a : Bool), fit true a l = true → a = true
  | [], a, h => by simpa [fit, eq_comm] using h
  | i :: l, a, h => by
    cases i <;> simp only [fit, Bool.and_eq_true] at h <;>
      first | exact h.1 | exact fit_alive l a h.2

theorem Active.thread {s : St} (h : Active s) : decide (s.svc ≠ .absent) = true := by
  rcases h with h | h | ⟨is, h⟩ <;> simp [h]

/-! ## C174 -/

/-- What both threads use without order: the exact list. -/
def raced : List Loc := [.state, .userCb, .ctxCb, .ctxPtr, .running, .subs, .reconnect, .lws]

/-- **C174 (what holds).** Under no schedule is there a data race on anything else: the receive buffer, the handle, the time of the last
attempt, the pointer to the websocket, the flag about the thread. -/
theorem C174_others_partial {s : St} (h : Reach s) {l : Loc} (hr : Race s l) : l ∈ raced := by
  have hi := h.inv
  have act : Active s := by
    rcases hr with ⟨-, hr⟩ | ⟨-, i, r, e, -⟩
    · rcases hr with ⟨e, -⟩ | ⟨e, -⟩ | ⟨i, r, e, -⟩
      · exact .inl e
      · exact .inr (.inl e)
      · exact .inr (.inr ⟨_, e⟩)
    · exact .inr (.inr ⟨_, e⟩)
  have hf := hi.fit
  rw [act.thread] at hf
  have happ : ∀ i r, s.app = i :: r → i = .join ∨ appOk i = true := by
    intro i r e
    rw [e] at hf
    cases i <;> simp only [fit, Bool.and_eq_true] at hf <;> first | exact .inl rfl | exact .inr hf.1
  have hsvc : ∀ i r, s.svc = .body (i :: r) → svcOk i = true := by
    intro i r e
    have := (hi.svc _ e).1
    simp only [List.all_cons, Bool.and_eq_true] at this
    exact this.1
  rcases hr with ⟨⟨i, r, ei, wi⟩, hr⟩ | ⟨⟨i, r, ei, ti⟩, j, q, ej, wj⟩
  · have ai := happ i r ei
    rcases hr with ⟨-, rfl⟩ | ⟨-, rfl⟩ | ⟨j, q, ej, tj⟩
    · decide
    · decide
    · have sj := hsvc j q ej
      cases l <;> first | decide | (cases i <;> simp_all [Ins.writes, appOk] <;> cases j <;> simp_all [Ins.touches, Ins.writes, svcOk])
  · have ai := happ i r ei
    have sj := hsvc j q ej
    cases l <;> first | decide | (cases j <;> simp_all [Ins.writes, svcOk] <;> cases i <;> simp_all [Ins.touches, Ins.writes, appOk])

/-- Both threads at the same memory, as a test. -/
def Ins.writesB (l : Loc) : Ins → Bool
  | .wr k => k = l
  | .run _ => l = .running
  | .ctxp _ => l = .ctxPtr
  | _ => false

def Ins.touchesB (l : Loc) : Ins → Bool
  | .rd k => k = l
  | i => Ins.writesB l i

def raceB (l : Loc) (s : St) : Bool :=
  match s.app, s.svc with
  | i :: _, .head => Ins.writesB l i && l = .running
  | i :: _, .mid => Ins.writesB l i && l = .ctxPtr
  | i :: _, .body (j :: _) => (Ins.writesB l i && Ins.touchesB l j) || (Ins.touchesB l i && Ins.writesB l j)
  | _, _ => false

theorem writesB_iff (l : Loc) (i : Ins) (h : Ins.writesB l i = true) : Ins.writes l i := by
  cases i <;> simp_all [Ins.writesB, Ins.writes]

theorem touchesB_iff (l : Loc) (i : Ins) (h : Ins.touchesB l i = true) : Ins.touches l i := by
  cases i <;> simp_all [Ins.writesB, Ins.touchesB, Ins.writes, Ins.touches]

theorem raceB_race {l : Loc} {s : St} (h : raceB l s = true) : Race s l := by
  obtain ⟨app, svc, running, context, holder, alive⟩ := s
  cases app with
  | nil => simp [raceB] at h
  | cons i r =>
    cases svc with
    | absent => simp [raceB] at h
    | ended => simp [raceB] at h
    | head =>
      simp only [raceB, Bool.and_eq_true, decide_eq_true_eq] at h
      exact .inl ⟨⟨i, r, rfl, writesB_iff l i h.1⟩, .inl ⟨rfl, h.2⟩⟩
    | mid =>
      simp only [raceB, Bool.and_eq_true, decide_eq_true_eq] at h
      exact .inl ⟨⟨i, r, rfl, writesB_iff l i h.1⟩, .inr (.inl ⟨rfl, h.2⟩)⟩
    | body is =>
      cases is with
      | nil => simp [raceB] at h
      | cons j q =>
        simp only [raceB, Bool.or_eq_true, Bool.and_eq_true] at h
        rcases h with h | h
        · exact .inl ⟨⟨i, r, rfl, writesB_iff l i h.1⟩, .inr (.inr ⟨j, q, rfl, touchesB_iff l j h.2⟩)⟩
        · exact .inr ⟨⟨i, r, rfl, touchesB_iff l i h.1⟩, j, q, rfl, writesB_iff l j h.2⟩

/-- A schedule: connecting, a call of the application up to its `n`-th access, the service thread up to the `m`-th access after it has
entered `lws_service` with one callback. -/
def sched (c : Call) (n : Nat) (cb : Cb) (m : Nat) : List Act :=
  .call (.connect true) :: List.replicate 18 .app ++ .call c :: List.replicate n .app ++ List.replicate m (.svc [cb])

/-- For each of the eight a schedule that ends in a race: connected or lost against any call; setting the callback against setting it
in a callback, or against a message; disconnecting against the loop of the service thread (twice); subscribing against an event;
disconnecting against a lost connection; sending against any work of the library. -/
def clash : Loc → List Act
  | .state => sched (.use .refused) 0 (.established []) 4
  | .userCb => sched (.use .setCallback) 0 (.established [.setCallback]) 5
  | .ctxCb => sched (.use .setCallback) 2 (.receive [.other []]) 6
  | .ctxPtr => sched .disconnect 3 .other 1
  | .running => sched .disconnect 4 .other 0
  | .subs => sched (.use .subscribe) 4 (.receive [.event []]) 6
  | .reconnect => sched .disconnect 1 (.lost [] none) 5
  | _ => sched (.use .send) 5 .other 2

theorem clash_races (l : Loc) (h : l ∈ raced) : (steps idle (clash l)).any (raceB l) = true := by
  cases l <;> first | rfl | (exact absurd h (by decide))

/-- **C174, exactly.** Memory on which the two threads collide under some schedule is one of the eight; and each of the eight is. -/
theorem C174_exact (l : Loc) : (∃ s, Reach s ∧ Race s l) ↔ l ∈ raced := by
  refine ⟨fun ⟨s, h, hr⟩ => C174_others_partial h hr, fun h => ?_⟩
  have := clash_races l h
  cases hs : steps idle (clash l) with
  | none => rw [hs] at this; simp at this
  | some s => rw [hs] at this; exact ⟨s, ⟨_, hs⟩, raceB_race (by simpa using this)⟩

/-- **C174 fails**: not every state is free of races. -/
theorem C174_refuted : ¬ ∀ s l, Reach s → ¬ Race s l := by
  intro h
  obtain ⟨s, hs, hr⟩ := (C174_exact .subs).mpr (by decide)
  exact h s _ hs hr

/-- **C174 (what holds, messages).** Two messages are never written at the same time, whoever sends them. -/
theorem C174_writes_partial {s : St} (h : Reach s) {r q : List Ins} (ha : s.app = .wr .lws :: .unlock :: r) :
    s.svc ≠ .body (.wr .lws :: .unlock :: q) := by
  intro hb
  have hi := h.inv
  have h1 := hi.app
  have h2 := (hi.svc _ hb).2
  rw [ha] at h1
  simp only [balanced, Bool.and_eq_true, decide_eq_true_eq] at h1 h2
  rw [h1.1] at h2
  simp at h2

/-- The application is in the middle of a message, and the service thread is about to write one from a callback: it must wait. -/
example : (steps idle (sched (.use .send) 5 (.established [.send]) 8)).any (fun s =>
    s.app.take 2 == [.wr .lws, .unlock] && s.svc == .body [.lock, .rd .wsi, .wr .lws, .unlock, .wr .lws] &&
      (step s (.svc [])).isNone) = true := rfl

/-! ## C175 -/

/-- **C175, what is released.** While the service thread runs, what it uses has not been released, under every schedule. -/
theorem C175_released {s : St} (h : Reach s) (ha : Active s) : s.alive = true := by
  have hf := h.inv.fit
  rw [ha.thread] at hf
  exact fit_alive _ _ hf

/-- The accesses that the service thread can still make once it has been told to stop. -/
def left : Svc → Nat
  | .absent => 0
  | .head => 1
  | .mid => 1
  | .body is => is.length + 2
  | .ended => 0

/-- The service thread alone takes `n` steps. -/
inductive Svcs : St → Nat → St → Prop
  | zero (s : St) : Svcs s 0 s
  | succ {s t u : St} {n : Nat} (cbs : List Cb) : step s (.svc cbs) = some t → Svcs t n u → Svcs s (n + 1) u

theorem svc_left {s t : St} {cbs : List Cb} (hr : s.running = false) (hc : s.context = false) (h : step s (.svc cbs) = some t) :
    left t.svc < left s.svc ∧ t.running = false ∧ t.context = false ∧ t.app = s.app := by
  obtain ⟨app, svc, running, context, holder, alive⟩ := s
  simp only at hr hc
  subst hr hc
  cases svc with
  | absent => simp [step] at h
  | ended => simp [step] at h
  | head => cases h; exact ⟨by simp [left], rfl, rfl, rfl⟩
  | mid => cases h; exact ⟨by simp [left], rfl, rfl, rfl⟩
  | body is =>
    cases is with
    | nil => cases h; exact ⟨by simp [left], rfl, rfl, rfl⟩
    | cons i q =>
      cases i <;> simp only [step] at h <;> (try split at h) <;> cases h <;> exact ⟨by simp [left], rfl, rfl, rfl⟩

theorem svcs_left {s t : St} {n : Nat} (h : Svcs s n t) (hr : s.running = false) (hc : s.context = false) : n + left t.svc ≤ left s.svc := by
  induction h with
  | zero s => simp
  | succ cbs hs _ ih =>
    obtain ⟨h1, h2, h3, -⟩ := svc_left hr hc hs
    have := ih h2 h3
    omega

/-- **C175, disconnecting ends.** When the application waits for the service thread, that thread has only what is left of its present
work before it: it makes at most that many steps, whatever the websocket library would still like to report. -/
theorem C175_stops {s t : St} (h : Reach s) {r : List Ins} (hj : s.app = .join :: r) {n : Nat} (hs : Svcs s n t) : n ≤ left s.svc := by
  have hi := h.inv.told
  rw [hj] at hi
  simp only [told, Bool.and_eq_true, Bool.not_eq_true'] at hi
  have := svcs_left hs hi.1.1 hi.1.2
  omega

theorem body_moves {s : St} (hi : Inv s) {is : List Ins} (hb : s.svc = .body is) (hh : s.holder ≠ some .app) : ∃ t, step s (.svc []) = some t := by
  obtain ⟨app, svc, running, context, holder, alive⟩ := s
  simp only at hb hh
  subst hb
  cases is with
  | nil => exact ⟨_, rfl⟩
  | cons i q =>
    cases i with
    | lock =>
      have := (hi.svc _ rfl).2
      simp only [balanced, Bool.and_eq_true, Bool.not_eq_true', decide_eq_false_iff_not] at this
      have hn : holder = none := by
        rcases holder with _ | ⟨_ | _⟩
        · rfl
        · exact absurd rfl hh
        · exact absurd rfl this.1
      subst hn
      exact ⟨_, rfl⟩
    | _ => exact ⟨_, rfl⟩

theorem svc_moves {s : St} (hi : Inv s) (ha : Active s) (hh : s.holder ≠ some .app) : ∃ t, step s (.svc []) = some t := by
  rcases ha with h | h | ⟨is, h⟩
  · exact ⟨_, by simp only [step, h]; rfl⟩
  · exact ⟨_, by simp only [step, h]; rfl⟩
  · exact body_moves hi h hh

/-- **C175, no standstill.** While a call is under way or the service thread runs, one of the two threads can go on. -/
theorem C175_progress {s : St} (h : Reach s) (hw : s.app ≠ [] ∨ Active s) : ∃ a, (a = .app ∨ a = .svc []) ∧ ∃ t, step s a = some t := by
  have hi := h.inv
  by_cases hh : s.holder = some .app
  · refine ⟨.app, .inl rfl, ?_⟩
    have hb := hi.app
    obtain ⟨app, svc, running, context, holder, alive⟩ := s
    simp only at hh hb
    subst hh
    cases app with
    | nil => simp [balanced] at hb
    | cons i r => cases i <;> first | exact ⟨_, rfl⟩ | (simp [balanced] at hb)
  · by_cases hact : Active s
    · exact ⟨.svc [], .inr rfl, svc_moves hi hact hh⟩
    · refine ⟨.app, .inl rfl, ?_⟩
      have hn : s.holder ≠ some .svc := hi.free (fun is e => hact (.inr (.inr ⟨is, e⟩)))
      have hf := hi.fit
      have hne : s.app ≠ [] := hw.resolve_right hact
      obtain ⟨app, svc, running, context, holder, alive⟩ := s
      simp only at hh hn hf hne
      have hn : holder = none := by
        rcases holder with _ | ⟨_ | _⟩
        · rfl
        · exact absurd rfl hh
        · exact absurd rfl hn
      subst hn
      cases app with
      | nil => exact absurd rfl hne
      | cons i r =>
        cases i with
        | join =>
          cases svc with
          | ended => exact ⟨_, rfl⟩
          | absent => simp [fit] at hf
          | head => exact absurd (.inl rfl) hact
          | mid => exact absurd (.inr (.inl rfl)) hact
          | body is => exact absurd (.inr (.inr ⟨is, rfl⟩)) hact
        | _ => exact ⟨_, rfl⟩

/-- **C175, disconnecting comes back.** When the application waits for the service thread, that thread can always take its remaining steps
one after the other; at the end of them it has returned and the application goes on. -/
theorem C175_returns {s : St} (h : Reach s) {r : List Ins} (hj : s.app = .join :: r) :
    ∃ n t u, Svcs s n t ∧ t.svc = .ended ∧ step t .app = some u ∧ u.app = r := by
  have key : ∀ k (s : St), left s.svc ≤ k → Reach s → s.app = .join :: r → ∃ n t u, Svcs s n t ∧ t.svc = .ended ∧ step t .app = some u ∧ u.app = r := by
    intro k
    induction k with
    | zero =>
      intro s hk h hj
      have hf := h.inv.fit
      rw [hj] at hf
      cases hs : s.svc with
      | absent => simp [hs, fit] at hf
      | ended => exact ⟨0, s, { s with app := r, svc := .absent }, .zero s, hs, by simp only [step, hj, hs, if_true], rfl⟩
      | head => simp [hs, left] at hk
      | mid => simp [hs, left] at hk
      | body is => simp [hs, left] at hk
    | succ k ih =>
      intro s hk h hj
      have hi := h.inv
      have hf := hi.fit
      have ht := hi.told
      have hb := hi.app
      rw [hj] at hf ht hb
      simp only [told, Bool.and_eq_true, Bool.not_eq_true'] at ht
      simp only [balanced, Bool.and_eq_true, Bool.not_eq_true', decide_eq_false_iff_not] at hb
      by_cases he : s.svc = .ended
      · exact ⟨0, s, { s with app := r, svc := .absent }, .zero s, he, by simp only [step, hj, he, if_true], rfl⟩
      · have hact : Active s := by
          cases hs : s.svc with
          | absent => simp [hs, fit] at hf
          | ended => exact absurd hs he
          | head => exact .inl hs
          | mid => exact .inr (.inl hs)
          | body is => exact .inr (.inr ⟨is, hs⟩)
        obtain ⟨t, hs⟩ := svc_moves hi hact hb.1
        obtain ⟨h1, -, -, h4⟩ := svc_left ht.1.1 ht.1.2 hs
        have hr : Reach t := by
          obtain ⟨as, ha⟩ := h
          refine ⟨as ++ [.svc []], ?_⟩
          have app : ∀ (as : List Act) (x : St), steps x as = some s → steps x (as ++ [.svc []]) = some t := by
            intro as
            induction as with
            | nil => intro x hx; cases hx; simp [steps, hs]
            | cons a as ih =>
              intro x hx
              simp only [List.cons_append, steps] at hx ⊢
              cases hxa : step x a with
              | none => simp [hxa] at hx
              | some y => rw [hxa] at hx; exact ih y hx
          exact app as _ ha
        obtain ⟨n, t', u, hn, rest⟩ := ih t (by omega) hr (h4.trans hj)
        exact ⟨n + 1, t', u, .succ [] hs hn, rest⟩
  exact key _ s (Nat.le_refl _) h hj

/-- Disconnecting while an event with two answers of the application is being handled: seventeen steps of the handling are
still to come, and two of the loop. -/
example : (steps idle (sched .disconnect 0 (.receive [.event [.send, .send]]) 6 ++ List.replicate 6 .app)).any (fun s =>
    s.app.head? == some .join && !s.running && left s.svc == 19) = true := rfl

/-- The same to its end: the context is released and the thread is gone. -/
example : (steps idle (sched .disconnect 0 (.receive [.event [.send, .send]]) 6 ++ List.replicate 6 .app ++ List.replicate 19 (.svc []) ++
    List.replicate 10 .app)).any (fun s => s.app == [] && s.svc == .absent && !s.alive) = true := rfl

end Nostr.Relay.Threads.Props
