import Verif.Keys.First

/-! # C200: calls before, between and after initialisation -/

namespace Nostr.Keys.First.Props
open Nostr Nostr.Keys.First

/-! ## Specification -/

/-- The functions that never initialise the library themselves before they use it. -/
def NeedsInit : Call → Prop
  | .nip17Send | .nip59Wrap | .nip47Request => True
  | .hdFromSeed | .hdDerive _ | .hdPath _ | .mnemonicToKeypair _ => True
  | _ => False

/-- The functions whose test is the flag, or that always initialise: keys and delegations, and NIP-04. -/
def TestsFlag : Call → Prop
  | .keyGenerate | .ecdh | .keypairGenerate | .keypairFromKey | .keypairFromHex | .keypairValidate => True
  | .delegationCreate | .delegationVerify | .delegationCheck | .nip04Encrypt | .nip04Decrypt => True
  | _ => False

/-- HD keys are only compiled with secp256k1 (C199). -/
def Linked (m : Mode) : Call → Prop
  | .hdDerive _ | .hdPath _ | .mnemonicToKeypair _ => m.secp256k1 = true
  | _ => True

/-- The build has a cryptographic library. -/
def HasLibrary (m : Mode) : Prop := m.noscrypt = true ∨ m.secp256k1 = true

/-- An initialisation that does not fail between getting the shared context and initialising it. -/
def Luck.Whole (l : Luck) : Prop := l.shared = true → l.entropy = true ∧ l.setup = true

/-- An initialisation in which nothing fails. -/
def Luck.Good (l : Luck) : Prop := l.shared = true ∧ l.entropy = true ∧ l.setup = true ∧ l.create = true

/-- All initialisations of an operation are whole. -/
def Op.Whole : Op → Prop
  | .init l => Luck.Whole l
  | .cleanup => True
  | .call _ _ l => ∀ i, Luck.Whole (l i)

/-! ## Invariants -/

/-- The flag says that the contexts are there. -/
def Ready (m : Mode) (c : Ctx) : Prop :=
  c.flag = true → (m.noscrypt = true → c.nc = .live) ∧ (m.secp256k1 = true → c.secp = true)

/-- The pointers say it as well. -/
def Told (m : Mode) (c : Ctx) : Prop :=
  (m.noscrypt = true → c.nc ≠ .null → c.flag = true) ∧ (m.noscrypt = false → c.secp = true → c.flag = true)

theorem init_ready (m : Mode) (l : Luck) (c : Ctx) (h : Ready m c) :
    Ready m (init m l c).2 ∧ ((init m l c).1 = true → (init m l c).2.flag = true) := by
  obtain ⟨n, s⟩ := m
  obtain ⟨l1, l2, l3, l4⟩ := l
  obtain ⟨nc, sp, fl⟩ := c
  revert h
  cases n <;> cases s <;> cases l1 <;> cases l2 <;> cases l3 <;> cases l4 <;> cases fl <;>
    simp [Ready, init, initSecp]

theorem init_told (m : Mode) (l : Luck) (c : Ctx) (hw : Luck.Whole l) (h : Told m c) : Told m (init m l c).2 := by
  obtain ⟨n, s⟩ := m
  obtain ⟨l1, l2, l3, l4⟩ := l
  obtain ⟨nc, sp, fl⟩ := c
  revert h hw
  cases n <;> cases s <;> cases l1 <;> cases l2 <;> cases l3 <;> cases l4 <;> cases fl <;>
    simp [Told, Luck.Whole, init, initSecp]

theorem init_good (m : Mode) (l : Luck) (c : Ctx) (hm : HasLibrary m) (hg : Luck.Good l) : (init m l c).1 = true := by
  obtain ⟨n, s⟩ := m
  obtain ⟨l1, l2, l3, l4⟩ := l
  obtain ⟨nc, sp, fl⟩ := c
  revert hm hg
  cases n <;> cases s <;> cases l1 <;> cases l2 <;> cases l3 <;> cases l4 <;> cases fl <;>
    simp [HasLibrary, Luck.Good, init, initSecp]

theorem lazily_inv (m : Mode) (l : Luck) (b : Bool) (c : Ctx) (h : Ready m c) :
    Ready m (lazily m l b c).2 ∧ (Luck.Whole l → Told m c → Told m (lazily m l b c).2) ∧
    ((lazily m l b c).1 = .fine ∨ (lazily m l b c).1 = .noInit) ∧
    ((lazily m l b c).1 = .fine → (b = false → c.flag = true) → (lazily m l b c).2.flag = true) ∧
    (HasLibrary m → Luck.Good l → (lazily m l b c).1 = .fine) := by
  have h1 := init_ready m l c h
  have h2 := init_told m l c
  have h3 := init_good m l c
  unfold lazily
  cases b with
  | false =>
    refine ⟨h, fun _ h => h, .inl rfl, fun _ h => h rfl, fun _ _ => rfl⟩
  | true =>
    rw [if_pos rfl]
    generalize hi : init m l c = r at h1 h2 h3
    obtain ⟨ok, c'⟩ := r
    cases ok with
    | true => exact ⟨h1.1, h2, .inl rfl, fun _ _ => h1.2 rfl, fun _ _ => rfl⟩
    | false => exact ⟨h1.1, h2, .inr rfl, (fun h => by cases h), (fun a b => absurd (h3 a b) (by simp))⟩

theorem step_inv (m : Mode) (l : Luck) (c : Ctx) (a : Act) (h : Ready m c) :
    Ready m (step m l c a).2 ∧ (Luck.Whole l → Told m c → Told m (step m l c a).2) := by
  cases a with
  | flag => exact ⟨(lazily_inv m l _ c h).1, (lazily_inv m l _ c h).2.1⟩
  | pointer => exact ⟨(lazily_inv m l _ c h).1, (lazily_inv m l _ c h).2.1⟩
  | always => exact ⟨(lazily_inv m l _ c h).1, (lazily_inv m l _ c h).2.1⟩
  | key => exact ⟨h, fun _ h => h⟩
  | secp => exact ⟨h, fun _ h => h⟩

theorem steps_inv (m : Mode) : ∀ (as : List (Act × Luck)) (c : Ctx), Ready m c →
    Ready m (steps m as c).2 ∧ ((∀ p ∈ as, Luck.Whole p.2) → Told m c → Told m (steps m as c).2)
  | [], c, h => ⟨h, fun _ h => h⟩
  | (a, l) :: as, c, h => by
    have h1 := step_inv m l c a h
    unfold steps
    generalize step m l c a = r at h1
    obtain ⟨o, c'⟩ := r
    cases o with
    | fine =>
      have h2 := steps_inv m as c' h1.1
      exact ⟨h2.1, fun hw ht => h2.2 (fun p hp => hw p (List.mem_cons_of_mem _ hp))
        (h1.2 (hw _ (List.mem_cons_self ..)) ht)⟩
    | _ => exact ⟨h1.1, fun hw ht => h1.2 (hw _ (List.mem_cons_self ..)) ht⟩

theorem plan_mem {f : Call} {k : Nat} {l : Nat → Luck} {p : Act × Luck} (h : p ∈ f.plan k l) :
    p.1 ∈ f.acts ∧ ∃ i, p.2 = l i := by
  unfold Call.plan at h
  have h := List.mem_of_mem_take h
  obtain ⟨q, hq, rfl⟩ := List.mem_map.1 h
  refine ⟨?_, q.2, rfl⟩
  have := List.mem_zipIdx' hq
  rw [this.2]
  exact List.getElem_mem _

theorem run_inv (m : Mode) (hm : HasLibrary m) (c : Ctx) (o : Op) (h : Ready m c) :
    Ready m (o.run m c).2 ∧ (Op.Whole o → Told m c → Told m (o.run m c).2) := by
  cases o with
  | init l =>
    have h1 := init_ready m l c h
    have h2 := init_told m l c
    simp only [Op.run]
    generalize init m l c = r at h1 h2
    obtain ⟨ok, c'⟩ := r
    cases ok <;> exact ⟨h1.1, h2⟩
  | cleanup =>
    refine ⟨(fun h => by cases h), ?_⟩
    intro _ _
    simp only [Op.run, cleanup]
    refine ⟨fun hn => by simp [hn], fun hn hs => ?_⟩
    rcases hm with hm | hm
    · rw [hm] at hn; cases hn
    · rw [hm, if_pos rfl] at hs; cases hs
  | call f k l =>
    have := steps_inv m (f.plan k l) c h
    refine ⟨this.1, fun hw => this.2 ?_⟩
    intro p hp
    obtain ⟨_, i, hi⟩ := plan_mem hp
    rw [hi]; exact hw i

theorem after_inv (m : Mode) (hm : HasLibrary m) : ∀ (os : List Op) (c : Ctx), Ready m c →
    Ready m (after m c os) ∧ ((∀ o ∈ os, Op.Whole o) → Told m c → Told m (after m c os))
  | [], c, h => ⟨h, fun _ h => h⟩
  | o :: os, c, h => by
    have h1 := run_inv m hm c o h
    have h2 := after_inv m hm os _ h1.1
    exact ⟨h2.1, fun hw ht => h2.2 (fun p hp => hw p (List.mem_cons_of_mem _ hp))
      (h1.2 (hw o (List.mem_cons_self ..)) ht)⟩

theorem start_inv (m : Mode) : Ready m start ∧ Told m start :=
  ⟨(fun h => by cases h), (fun _ h => absurd rfl h), (fun _ h => by cases h)⟩

/-- With the flag set every step goes on and changes nothing. -/
theorem step_flag (m : Mode) (hm : HasLibrary m) (l : Luck) (c : Ctx) (a : Act) (h : Ready m c) (hf : c.flag = true)
    (hs : a = .secp → m.secp256k1 = true) : step m l c a = (.fine, c) := by
  obtain ⟨hn, hp⟩ := h hf
  cases a with
  | flag => simp [step, lazily, hf]
  | pointer =>
    simp only [step, lazily]
    by_cases hb : m.noscrypt = true
    · simp [hb, hn hb]
    · have : m.secp256k1 = true := by rcases hm with hm | hm; exact absurd hm hb; exact hm
      simp [hb, hp this]
  | always => simp [step, lazily, init, hf]
  | key =>
    simp only [step, useNc, useSecp]
    by_cases hb : m.noscrypt = true
    · simp [hb, hn hb]
    · have : m.secp256k1 = true := by rcases hm with hm | hm; exact absurd hm hb; exact hm
      simp [hb, hp this]
  | secp => simp [step, useSecp, hp (hs rfl)]

theorem steps_flag (m : Mode) (hm : HasLibrary m) : ∀ (as : List (Act × Luck)) (c : Ctx), Ready m c → c.flag = true →
    (∀ p ∈ as, p.1 = .secp → m.secp256k1 = true) → steps m as c = (.fine, c)
  | [], _, _, _, _ => rfl
  | (a, l) :: as, c, h, hf, hs => by
    unfold steps
    rw [step_flag m hm l c a h hf (hs _ (List.mem_cons_self ..))]
    exact steps_flag m hm as c h hf fun p hp => hs p (List.mem_cons_of_mem _ hp)

theorem acts_linked (m : Mode) (f : Call) (hl : Linked m f) (h : Act.secp ∈ f.acts) : m.secp256k1 = true := by
  cases f with
  | hdDerive _ => exact hl
  | hdPath _ => exact hl
  | mnemonicToKeypair _ => exact hl
  | _ => exact absurd h (by decide)

/-- The steps of a guarded call begin with a guard. -/
theorem acts_guard (f : Call) (h : ¬ NeedsInit f) :
    ∃ a as, f.acts = a :: as ∧ (a = .flag ∨ a = .pointer ∨ a = .always) ∧ (TestsFlag f → a ≠ .pointer) := by
  cases f with
  | nip17Send | nip59Wrap | nip47Request | hdFromSeed => exact absurd trivial h
  | hdDerive _ | hdPath _ | mnemonicToKeypair _ => exact absurd trivial h
  | _ => exact ⟨_, _, rfl, by simp, by simp [TestsFlag]⟩

theorem plan_cons {f : Call} {a : Act} {as : List Act} (h : f.acts = a :: as) (k : Nat) (l : Nat → Luck) :
    f.plan 0 l = [] ∧ ∃ ps, f.plan (k + 1) l = (a, l 0) :: ps := by
  unfold Call.plan
  rw [h]
  simp [List.zipIdx_cons]

/-- A guarded call. -/
theorem guarded (m : Mode) (hm : HasLibrary m) (c : Ctx) (f : Call) (hl : Linked m f) (hn : ¬ NeedsInit f) (k : Nat)
    (l : Nat → Luck) (h : Ready m c) (ht : Told m c ∨ TestsFlag f) :
    (((Op.call f k l).run m c).1 = .fine ∨ ((Op.call f k l).run m c).1 = .noInit) ∧
    ((∀ i, Luck.Good (l i)) → ((Op.call f k l).run m c).1 = .fine) := by
  obtain ⟨a, as, ha, hg, hp⟩ := acts_guard f hn
  simp only [Op.run]
  cases k with
  | zero => rw [(plan_cons ha 0 l).1]; exact ⟨.inl rfl, fun _ => rfl⟩
  | succ k =>
    obtain ⟨ps, hps⟩ := (plan_cons ha k l).2
    have hsec : ∀ p ∈ ps, p.1 = .secp → m.secp256k1 = true := by
      intro p hp he
      have := (plan_mem (f := f) (k := k + 1) (l := l) (p := p) (hps ▸ List.mem_cons_of_mem _ hp)).1
      rw [he] at this
      exact acts_linked m f hl this
    have key : ∃ b, step m (l 0) c a = lazily m (l 0) b c ∧ (b = false → c.flag = true) := by
      rcases hg with rfl | rfl | rfl
      · exact ⟨!c.flag, rfl, by simp⟩
      · refine ⟨_, rfl, ?_⟩
        intro hb
        have ht : Told m c := by
          rcases ht with ht | ht
          · exact ht
          · exact absurd rfl (hp ht)
        by_cases hns : m.noscrypt = true
        · rw [if_pos hns] at hb
          exact ht.1 hns (by simpa using hb)
        · rw [if_neg hns] at hb
          exact ht.2 (by simpa using hns) (by simpa using hb)
      · exact ⟨true, rfl, by simp⟩
    obtain ⟨b, hb, hbf⟩ := key
    rw [hps]
    unfold steps
    rw [hb]
    obtain ⟨h1, _, h2, h3, h4⟩ := lazily_inv m (l 0) b c h
    generalize lazily m (l 0) b c = r at h1 h2 h3 h4
    obtain ⟨o, c'⟩ := r
    rcases h2 with h2 | h2
    · simp only at h2
      subst h2
      have := steps_flag m hm ps c' h1 (h3 rfl hbf) hsec
      simp only []
      rw [this]
      exact ⟨.inl rfl, fun _ => rfl⟩
    · simp only at h2
      subst h2
      exact ⟨.inr rfl, fun hgood => absurd (h4 hm (hgood 0)) (by simp)⟩

/-! ## C200 -/

/-- A history without clean-up keeps the flag. -/
theorem after_flag (m : Mode) (hm : HasLibrary m) : ∀ (os : List Op) (c : Ctx), Ready m c → c.flag = true →
    (∀ o ∈ os, o ≠ .cleanup ∧ ∀ f k l, o = .call f k l → Linked m f) → after m c os = c
  | [], _, _, _, _ => rfl
  | o :: os, c, h, hf, ho => by
    have h1 : (o.run m c).2 = c := by
      cases o with
      | init l => simp [Op.run, init, hf]
      | cleanup => exact absurd rfl (ho _ (List.mem_cons_self ..)).1
      | call f k l =>
        have hl := (ho _ (List.mem_cons_self ..)).2 f k l rfl
        simp only [Op.run]
        rw [steps_flag m hm _ c h hf]
        intro p hp he
        have := (plan_mem hp).1
        rw [he] at this
        exact acts_linked m f hl this
    unfold after
    rw [h1]
    exact after_flag m hm os c h hf fun p hp => ho p (List.mem_cons_of_mem _ hp)

/-- **C200, after initialisation.** Whatever the program did before (any calls, failing initialisations, clean-ups): once
`nostr_init` has returned success, and until the next `nostr_cleanup`, every call of every function finds the contexts it
uses. -/
theorem C200_after_init (m : Mode) (hm : HasLibrary m) (before since : List Op) (l : Luck)
    (hi : (init m l (after m start before)).1 = true)
    (hs : ∀ o ∈ since, o ≠ .cleanup ∧ ∀ f k l, o = .call f k l → Linked m f)
    (f : Call) (hl : Linked m f) (k : Nat) (l' : Nat → Luck) :
    ((Op.call f k l').run m (after m (init m l (after m start before)).2 since)).1 = .fine := by
  have h1 := (after_inv m hm before start (start_inv m).1).1
  obtain ⟨h2, h3⟩ := init_ready m l _ h1
  have hf := h3 hi
  rw [after_flag m hm since _ h2 hf hs]
  simp only [Op.run]
  rw [steps_flag m hm _ _ h2 hf]
  intro p hp he
  have := (plan_mem hp).1
  rw [he] at this
  exact acts_linked m f hl this

/-- **C200, the answer of nostr_init.** At the start of the program and after `nostr_cleanup`, whatever was done before, `nostr_init`
succeeds exactly if every library of the build answered: noscrypt gave its context, there were random bytes for it and it was set up, and
secp256k1 created its context. -/
theorem C200_answer (m : Mode) (hm : HasLibrary m) (before : List Op) (l : Luck) :
    ∀ c ∈ [start, cleanup m (after m start before)], ((init m l c).1 = true ↔
      (m.noscrypt = true → l.shared = true ∧ l.entropy = true ∧ l.setup = true) ∧ (m.secp256k1 = true → l.create = true)) := by
  intro c hc
  have hf : c.flag = false := by
    simp only [List.mem_cons, List.not_mem_nil, or_false] at hc
    rcases hc with rfl | rfl <;> rfl
  obtain ⟨a, b⟩ := m
  obtain ⟨s, e, u, k⟩ := l
  simp only [HasLibrary] at hm
  simp only [init, initSecp, hf]
  revert hm
  cases a <;> cases b <;> cases s <;> cases e <;> cases u <;> cases k <;> simp

example : HasLibrary ⟨true, true⟩ ∧ (init ⟨true, true⟩ ⟨true, true, true, true⟩ start).1 = true ∧
    (init ⟨true, true⟩ ⟨true, true, false, true⟩ start).1 = false := ⟨.inl rfl, rfl, rfl⟩

/-- **C200, without initialisation.** A function that initialises the library itself, called at any point of any history
(also first of all, or after a clean-up) in which no initialisation failed halfway: no context is used before it is set
up; the call goes on, or returns the error of its own initialisation; and if that one succeeds it goes on, like a call
after `nostr_init`. Partial: seven functions do not initialise (`C200_first_refuted`), and after an initialisation that
failed halfway the pointer is set (`C200_half_refuted`). -/
theorem C200_lazy_partial (m : Mode) (hm : HasLibrary m) (before : List Op) (hw : ∀ o ∈ before, Op.Whole o)
    (f : Call) (hl : Linked m f) (hn : ¬ NeedsInit f) (k : Nat) (l : Nat → Luck) :
    (((Op.call f k l).run m (after m start before)).1 = .fine ∨
      ((Op.call f k l).run m (after m start before)).1 = .noInit) ∧
    ((∀ i, Luck.Good (l i)) → ((Op.call f k l).run m (after m start before)).1 = .fine) := by
  obtain ⟨h1, h2⟩ := after_inv m hm before start (start_inv m).1
  exact guarded m hm _ f hl hn k l h1 (.inl (h2 hw (start_inv m).2))

/-- **C200, keys and delegations.** The functions that test the flag, or always initialise, need no condition on the
history: initialisations may have failed anywhere. -/
theorem C200_keys (m : Mode) (hm : HasLibrary m) (before : List Op) (f : Call) (hf : TestsFlag f) (k : Nat)
    (l : Nat → Luck) :
    (((Op.call f k l).run m (after m start before)).1 = .fine ∨
      ((Op.call f k l).run m (after m start before)).1 = .noInit) ∧
    ((∀ i, Luck.Good (l i)) → ((Op.call f k l).run m (after m start before)).1 = .fine) := by
  have h1 := (after_inv m hm before start (start_inv m).1).1
  refine guarded m hm _ f ?_ ?_ k l h1 (.inr hf)
  · revert hf; cases f <;> simp [TestsFlag, Linked]
  · revert hf; cases f <;> simp [TestsFlag, NeedsInit]

/-- Nothing fails. -/
def allGood : Luck := ⟨true, true, true, true⟩
/-- The shared context is there, but no random bytes. -/
def halfway : Luck := ⟨true, false, true, true⟩

/-- A history with failing initialisations, calls and clean-ups, and a signature after it. -/
example : ((Op.call .sign 3 fun _ => allGood).run ⟨true, true⟩ (after ⟨true, true⟩ start
    [.init ⟨false, true, true, true⟩, .call .verify 2 (fun _ => allGood), .cleanup,
     .call .keyGenerate 3 (fun _ => ⟨true, true, true, false⟩)])).1 = .fine := by decide

/-- **C200, functions that need `nostr_init`.** Called first of all in a program, with nothing failing and whatever the
other arguments: in a build with noscrypt, sending a private message, wrapping an event and a wallet request are refused
by noscrypt and return an error; making a master key is refused with noscrypt and without it hands NULL to secp256k1; and
deriving a key hands NULL to secp256k1 in every build. -/
theorem C200_first_refuted (m : Mode) (k : Nat) :
    (m.noscrypt = true → ∀ f ∈ [Call.nip17Send, .nip59Wrap, .nip47Request, .hdFromSeed],
      ((Op.call f (k + 1) fun _ => allGood).run m start).1 = .refused) ∧
    (m.noscrypt = false → ((Op.call .hdFromSeed (k + 1) fun _ => allGood).run m start).1 = .crash) ∧
    (∀ h, ((Op.call (.hdDerive h) (k + 1) fun _ => allGood).run m start).1 = .crash) ∧
    (∀ h hs, ((Op.call (.hdPath (h :: hs)) (k + 1) fun _ => allGood).run m start).1 = .crash) := by
  refine ⟨?_, ?_, ?_, ?_⟩
  · intro hn f hf
    simp only [List.mem_cons, List.not_mem_nil, or_false] at hf
    rcases hf with rfl | rfl | rfl | rfl <;>
      simp [Op.run, Call.plan, Call.acts, List.zipIdx_cons, steps, step, hn, useNc, start]
  · intro hn
    simp [Op.run, Call.plan, Call.acts, List.zipIdx_cons, steps, step, hn, useSecp, start]
  · intro h
    cases h <;> simp [Op.run, Call.plan, Call.acts, derive, List.zipIdx_cons, steps, step, useSecp, start]
  · intro h hs
    cases h <;> simp [Op.run, Call.plan, Call.acts, derive, List.zipIdx_cons, steps, step, useSecp, start]

/-- **C200, an initialisation that failed halfway.** With noscrypt: if the random generator fails during `nostr_init`, the
next signature, verification, encryption or decryption uses a context that was never initialised, although an
initialisation would now succeed; generating a key initialises and works. -/
theorem C200_half_refuted (s : Bool) :
    (∀ f ∈ [Call.sign, .verify, .nip44Encrypt, .nip44Decrypt],
      ((Op.call f 2 fun _ => allGood).run ⟨true, s⟩ (after ⟨true, s⟩ start [.init halfway])).1 = .unset) ∧
    ((Op.call .keyGenerate 3 fun _ => allGood).run ⟨true, s⟩ (after ⟨true, s⟩ start [.init halfway])).1 = .fine := by
  cases s <;> decide

end Nostr.Keys.First.Props
