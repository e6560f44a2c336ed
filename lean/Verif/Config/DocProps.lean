import Verif.Config.Doc

/-! # The configuration against CONFIG.md: proofs -/

namespace Nostr.Config.Doc
open Nostr Nostr.Config Nostr.Config.Spec

theorem inForce_eq (s : Lib) : inForce s = if s.inited then some s.cfg else none := rfl

theorem run_snoc (s : Lib) (l : List Call) (o : Call) : run s (l ++ [o]) = (call (run s l) o).1 := by
  simp [run, List.foldl_append]

theorem init_keeps (s : Lib) (back : Res Unit) :
    (init s back).1.cfg = s.cfg ∧ (init s back).1.inited = s.inited ∧ (init s back).1.cb = s.cb ∧
    (init s back).1.data = s.data ∧ (init s back).1.log = s.log := by
  unfold init
  split
  · exact ⟨rfl, rfl, rfl, rfl, rfl⟩
  · split <;> exact ⟨rfl, rfl, rfl, rfl, rfl⟩

/-- What a call does to the registered function, and to nothing else's. -/
theorem call_cb (s : Lib) (o : Call) :
    (call s o).1.cb = (match o with | .setCallback f _ => f | _ => s.cb) ∧
    (call s o).1.data = (match o with | .setCallback _ d => d | _ => s.data) := by
  cases o with
  | init back => exact ⟨(init_keeps s back).2.2.1, (init_keeps s back).2.2.2.1⟩
  | cleanup => exact ⟨rfl, rfl⟩
  | initWith c env back =>
    simp only [call]
    split
    · exact ⟨rfl, rfl⟩
    · cases c with
      | some c =>
        simp only []
        split
        · exact ⟨(init_keeps _ back).2.2.1, (init_keeps _ back).2.2.2.1⟩
        · exact ⟨rfl, rfl⟩
      | none =>
        simp only []
        split
        · exact ⟨(init_keeps _ back).2.2.1, (init_keeps _ back).2.2.2.1⟩
        · exact ⟨rfl, rfl⟩
  | setCallback f d => exact ⟨rfl, rfl⟩
  | update c =>
    cases c with
    | none => exact ⟨rfl, rfl⟩
    | some c =>
      simp only [call]
      split
      · exact ⟨rfl, rfl⟩
      · split
        · split <;> rename_i h <;> simp_all
        · exact ⟨rfl, rfl⟩
  | get => exact ⟨rfl, rfl⟩

/-- The registered function is the one of the last registration of the history. -/
theorem registered_eq (c0 : Config) (l : List Call) :
    registered l = (run (start c0) l).cb.map (fun f => (f, (run (start c0) l).data)) := by
  have key : ∀ r : List Call,
      (∀ f d, r.findSome? (fun o => match o with | .setCallback f d => some (f, d) | _ => none) = some (f, d) →
        (run (start c0) r.reverse).cb = f ∧ (run (start c0) r.reverse).data = d) ∧
      (r.findSome? (fun o => match o with | .setCallback f d => some (f, d) | _ => none) = none →
        (run (start c0) r.reverse).cb = none) := by
    intro r
    induction r with
    | nil => exact ⟨by intro f d h; simp at h, fun _ => rfl⟩
    | cons o r ih =>
      rw [List.reverse_cons, run_snoc]
      have h := call_cb (run (start c0) r.reverse) o
      cases o <;> simp only [List.findSome?_cons] at ih h ⊢ <;> rw [h.1, h.2] <;>
        first
        | exact ih
        | (refine ⟨?_, by simp⟩
           intro f d hh
           simp only [Option.some.injEq, Prod.mk.injEq] at hh
           exact ⟨hh.1, hh.2⟩)
  have k := key l.reverse
  rw [List.reverse_reverse] at k
  unfold registered
  cases hf : l.reverse.findSome? (fun o => match o with | .setCallback f d => some (f, d) | _ => none) with
  | none => rw [k.2 hf]; rfl
  | some p =>
    obtain ⟨f, d⟩ := p
    obtain ⟨h1, h2⟩ := k.1 f d hf
    rw [h1, h2]
    cases f <;> rfl

/-- The calls before an initialisation with a configuration leave the library without one. -/
def Plain : Call → Prop
  | .initWith _ _ _ => False
  | _ => True

theorem plain_inited (s : Lib) (o : Call) (ho : Plain o) (h : s.inited = false) : (call s o).1.inited = false := by
  cases o with
  | init back => exact (init_keeps s back).2.1.trans h
  | initWith => exact ho.elim
  | update c =>
    cases c with
    | none => exact h
    | some c => simp only [call, h]; exact h
  | cleanup => exact h
  | setCallback => exact h
  | get => exact h

theorem plain_run (c0 : Config) (l : List Call) (hl : ∀ o ∈ l, Plain o) : (run (start c0) l).inited = false := by
  unfold run
  have : ∀ (l : List Call) (s : Lib), (∀ o ∈ l, Plain o) → s.inited = false →
      (l.foldl (fun s o => (call s o).1) s).inited = false := by
    intro l
    induction l with
    | nil => intro s _ h; exact h
    | cons o l ih =>
      intro s hl h
      exact ih _ (fun x hx => hl x (List.mem_cons_of_mem _ hx)) (plain_inited s o (hl o (List.mem_cons_self ..)) h)
  exact this l _ hl rfl

/-- The settings of two configurations, compared one by one. -/
theorem ext_settings {c d : Config} (h : ∀ v ∈ settings, v.2.1 c = v.2.1 d) : c = d := by
  simp only [settings, List.mem_cons, List.not_mem_nil, or_false, forall_eq_or_imp, forall_eq] at h
  obtain ⟨h1, h2, h3, h4, h5, h6, h7, h8, h9, h10, h11, h12, h13⟩ := h
  cases c; cases d
  simp only [Config.mk.injEq] at *
  omega

theorem from_var {var : Option Bytes} {lo hi old got n d : Int} (f : FromVar var lo hi old got)
    (h : var = some (Num.decInt n) ∨ (var = none ∧ n = d)) (hd : old = d) (h1 : lo ≤ n) (h2 : n ≤ hi) : got = n := by
  rcases h with h | ⟨h, hn⟩
  · exact f.2.1 n h1 h2 h
  · rw [f.1 h, hd, hn]

theorem loadEnv_asks {env : Env} {c : Config} (hc : InRange c) (h : Asks env c) : loadEnv env defaults = c := by
  obtain ⟨a1, a2, a3, a4, a5, a6, a7, a8, a9, a10, a11, a12⟩ := hc
  apply ext_settings
  intro v hv
  have ha := h v hv
  simp only [settings, List.mem_cons, List.not_mem_nil, or_false] at hv
  rcases hv with hv | hv | hv | hv | hv | hv | hv | hv | hv | hv | hv | hv | hv <;> subst hv <;>
    simp only [] at ha ⊢ <;>
    first
    | (refine from_var (u32_var env _ _) ha rfl ?_ ?_ <;> omega)
    | (refine from_var (i32_var env _ _) ha rfl ?_ ?_ <;> omega)

namespace Props

/-- C214: the library accepts no configuration outside the bounds of CONFIG.md, and of those inside it
accepts exactly the ones whose smallest plaintext is no larger than their largest and whose response
timeout is at most a minute. Every refusal is `NOSTR_ERR_INVALID_PARAM`. -/
theorem C214_rules_partial (c : Config) :
    (validate c = .ok () ↔ Documented c ∧ c.nip44Min ≤ c.nip44Max ∧ c.responseTimeout ≤ 60000) ∧
    (validate c ≠ .ok () → validate c = .err .invalidParam) := by
  constructor
  · rw [validate_ok]
    unfold InRange Documented
    omega
  · intro h
    exact (validate_or c).resolve_left h

/-- C214 refuted: CONFIG.md allows timeouts up to 300000 ms. A configuration with a longer response
timeout than a minute lies within the documented rules and is refused: by validation, by an update and
by an initialisation, in every state. -/
theorem C214_timeout_refuted (n : Nat) (h1 : 60000 < n) (h2 : n ≤ 300000) :
    Documented { defaults with responseTimeout := n } ∧
    validate { defaults with responseTimeout := n } = .err .invalidParam ∧
    ∀ s : Lib, inForce (call s (.update (some { defaults with responseTimeout := n }))).1 = inForce s ∧
      (call s (.update (some { defaults with responseTimeout := n }))).2 ≠ .code (.ok ()) ∧
      ∀ env back, inForce (call s (.initWith (some { defaults with responseTimeout := n }) env back)).1 = inForce s := by
  have hv : validate { defaults with responseTimeout := n } = .err .invalidParam := by
    apply (validate_or _).resolve_left
    rw [validate_ok]
    unfold InRange
    simp only []
    omega
  refine ⟨?_, hv, fun s => ⟨?_, ?_, fun env back => ?_⟩⟩
  · unfold Documented
    simp only [defaults]
    refine ⟨by omega, by omega, by omega, by omega, by omega, by omega, by omega, by omega, by omega, by omega, by decide, by decide, by decide⟩
  · simp only [call, hv]
    cases s.inited <;> rfl
  · simp only [call, hv]
    cases s.inited <;> simp
  · simp only [call, hv]
    cases hs : s.inited <;> simp

/-- C214: initialising without a configuration does what CONFIG.md says of the defaults and the
environment. When the variables ask for an acceptable configuration, in decimal notation, this very
configuration is in force afterwards, whatever was called before, provided none was in force. -/
theorem C214_environment (c0 : Config) (l : List Call) (hn : inForce (run (start c0) l) = none) (env : Env) (c : Config)
    (hc : validate c = .ok ()) (h : Asks env c) (back : Res Unit) :
    inForce (run (start c0) (l ++ [.initWith none env back])) = some c := by
  have he := loadEnv_asks ((validate_ok c).1 hc) h
  have hi : (run (start c0) l).inited = false := by
    rw [inForce_eq] at hn
    cases hs : (run (start c0) l).inited with
    | false => rfl
    | true => rw [hs] at hn; simp at hn
  rw [run_snoc, inForce_eq]
  simp only [call, hi, he, hc]
  have k := init_keeps { run (start c0) l with cfg := c, inited := true } back
  simp only [Bool.false_eq_true, if_false]
  rw [k.1, k.2.1]
  rfl

/-- C214: without any variable the documented defaults are in force, setting by setting. -/
theorem C214_defaults (v : Bytes × (Config → Int) × Int) (hv : v ∈ settings) : v.2.1 defaults = v.2.2 := by
  simp only [settings, List.mem_cons, List.not_mem_nil, or_false] at hv
  rcases hv with hv | hv | hv | hv | hv | hv | hv | hv | hv | hv | hv | hv | hv <;> subst hv <;> rfl

/-- C214 refuted: CONFIG.md says that `nostr_init` initialises "with defaults and environment
variables". It does not: whatever the environment, after any calls other than
`nostr_init_with_config` — plain initialisations, registrations, updates — there is no current
configuration (`nostr_config_get_current` returns NULL, which the example of CONFIG.md dereferences)
and no configuration can be set by an update. -/
theorem C214_plain_refuted (c0 : Config) (l : List Call) (hl : ∀ o ∈ l, Plain o) :
    inForce (run (start c0) l) = none ∧
    ∀ c, call (run (start c0) l) (.update (some c)) = (run (start c0) l, .code (.err .notFound)) := by
  have h := plain_run c0 l hl
  refine ⟨?_, fun c => ?_⟩
  · rw [inForce_eq, h]; rfl
  · simp only [call, h]; rfl

/-- C214: the notifications are those the documentation promises. After every history a call adds
exactly one notification if it is an update that succeeds while a function is registered: to this
function, with the data it was registered with, the configuration in force before and the new one; any
other call adds none. -/
theorem C214_notified (c0 : Config) (l : List Call) (o : Call) :
    ∃ ns, (run (start c0) (l ++ [o])).log = (run (start c0) l).log ++ ns ∧ Promised c0 l o ns := by
  rw [run_snoc]
  unfold Promised
  rw [registered_eq c0, inForce_eq]
  generalize run (start c0) l = s
  cases o with
  | init back =>
    exact ⟨[], by rw [List.append_nil]; exact (init_keeps s back).2.2.2.2, (by intro _ _ _ _ h; simp at h), fun _ => rfl⟩
  | cleanup => exact ⟨[], by rw [List.append_nil]; rfl, (by intro _ _ _ _ h; simp at h), fun _ => rfl⟩
  | initWith c env back =>
    refine ⟨[], ?_, (by intro _ _ _ _ h; simp at h), fun _ => rfl⟩
    rw [List.append_nil]
    simp only [call]
    split
    · rfl
    · cases c <;> simp only [] <;> split <;> first | exact (init_keeps _ back).2.2.2.2 | rfl
  | setCallback f d => exact ⟨[], by rw [List.append_nil]; rfl, (by intro _ _ _ _ h; simp at h), fun _ => rfl⟩
  | get => exact ⟨[], by rw [List.append_nil]; rfl, (by intro _ _ _ _ h; simp at h), fun _ => rfl⟩
  | update c =>
    cases c with
    | none => exact ⟨[], by rw [List.append_nil]; rfl, (by intro _ _ _ _ h; simp at h), fun _ => rfl⟩
    | some c =>
      cases hi : s.inited with
      | false =>
        refine ⟨[], ?_, ?_, fun _ => rfl⟩
        · simp only [call, hi, List.append_nil]; rfl
        · intro _ _ _ _ _ _ h; simp at h
      | true =>
        rcases validate_or c with hv | hv
        · cases hb : s.cb with
          | none =>
            refine ⟨[], ?_, ?_, fun _ => rfl⟩
            · simp only [call, hi, hv, hb, List.append_nil]; rfl
            · intro _ _ _ _ _ _ _ h; simp at h
          | some f =>
            refine ⟨[⟨f, s.data, s.cfg, c⟩], ?_, ?_, ?_⟩
            · simp only [call, hi, hv, hb]; rfl
            · intro new old g d h1 _ h3 h4
              simp only [Call.update.injEq, Option.some.injEq, if_true, Option.map_some, Prod.mk.injEq] at h1 h3 h4
              rw [h1, h3, h4.1, h4.2]
            · intro h
              rcases h with h | h | h
              · exact absurd rfl (h c)
              · refine absurd ?_ h
                simp only [call, hi, hv, hb]; rfl
              · simp at h
        · refine ⟨[], ?_, ?_, fun _ => rfl⟩
          · simp only [call, hi, hv, List.append_nil]; rfl
          · intro _ _ _ _ _ h
            simp only [call, hi, hv] at h
            simp at h

/-- C214: a successful update is in force from then on, a refused one changes nothing at all. -/
theorem C214_update (s : Lib) (c : Config) :
    ((call s (.update (some c))).2 = .code (.ok ()) → inForce (call s (.update (some c))).1 = some c) ∧
    ((call s (.update (some c))).2 ≠ .code (.ok ()) → (call s (.update (some c))).1 = s) := by
  cases hi : s.inited with
  | false => simp [call, hi]
  | true =>
    rcases validate_or c with hv | hv
    · cases hb : s.cb <;> simp [call, hi, hv, hb, inForce_eq]
    · simp [call, hi, hv]

/-- C214 refuted: success of `nostr_init_with_config` does not mean that the library is initialised.
When the crypto libraries cannot be set up the call fails as it should, but repeating it reports
success with the library still not initialised; so does calling it again after `nostr_cleanup`. -/
theorem C214_retry_refuted (c0 : Config) (c : Config) (hc : validate c = .ok ()) (env : Env) :
    (call (start c0) (.initWith (some c) env (.err .memory))).2 = .code (.err .memory) ∧
    (call (run (start c0) [.initWith (some c) env (.err .memory)]) (.initWith (some c) env (.err .memory))).2 = .code (.ok ()) ∧
    (run (start c0) [.initWith (some c) env (.err .memory), .initWith (some c) env (.err .memory)]).ready = false ∧
    (call (run (start c0) [.initWith (some c) env (.ok ()), .cleanup]) (.initWith (some c) env (.ok ()))).2 = .code (.ok ()) ∧
    (run (start c0) [.initWith (some c) env (.ok ()), .cleanup, .initWith (some c) env (.ok ())]).ready = false := by
  simp [run, call, start, init, hc]

/-- C214, the part that holds: a first initialisation with a configuration that succeeds leaves the
library initialised, and the plain one always does. -/
theorem C214_ready_partial (c0 : Config) (l : List Call) (o : Call) (h : (call (run (start c0) l) o).2 = .code (.ok ()))
    (ho : (∃ back, o = .init back) ∨ (inForce (run (start c0) l) = none ∧ ∃ c env back, o = .initWith c env back)) :
    (run (start c0) (l ++ [o])).ready = true := by
  rw [run_snoc]
  rw [inForce_eq] at ho
  revert h ho
  generalize run (start c0) l = s
  have key : ∀ (s : Lib) (back : Res Unit), (init s back).2 = .ok () → (init s back).1.ready = true := by
    intro s back h
    unfold init at h ⊢
    by_cases hr : s.ready = true
    · rw [if_pos hr]; exact hr
    · rw [if_neg hr] at h ⊢
      cases back with
      | ok u => rfl
      | err e => simp at h
      | ub => simp at h
  intro h ho
  rcases ho with ⟨back, rfl⟩ | ⟨hn, c, env, back, rfl⟩
  · simp only [call, Ret.code.injEq] at h ⊢
    exact key s back h
  · have hi : s.inited = false := by
      cases hs : s.inited with
      | false => rfl
      | true => rw [hs] at hn; simp at hn
    cases c with
    | some c =>
      rcases validate_or c with hv | hv
      · simp only [call, hi, hv, Bool.false_eq_true, if_false, Ret.code.injEq] at h ⊢
        exact key _ back h
      · simp only [call, hi, hv, Bool.false_eq_true, if_false, Ret.code.injEq] at h
        simp at h
    | none =>
      rcases validate_or (loadEnv env defaults) with hv | hv
      · simp only [call, hi, hv, Bool.false_eq_true, if_false, Ret.code.injEq] at h ⊢
        exact key _ back h
      · simp only [call, hi, hv, Bool.false_eq_true, if_false, Ret.code.injEq] at h
        simp at h

/-! Non-vacuity: a session as in CONFIG.md. -/

/-- An environment that exports two of the variables. -/
def someEnv : Env := fun k =>
  if k = c!"NOSTR_MAX_TAGS" then some (c!"250") else if k = c!"NOSTR_DEBUG" then some (c!"1") else none

/-- The configuration it asks for. -/
def asked : Config := { defaults with maxTags := 250, debugMode := 1 }

example : Asks someEnv asked ∧ validate asked = .ok () := by
  constructor
  · intro v hv
    simp only [settings, List.mem_cons, List.not_mem_nil, or_false] at hv
    rcases hv with hv | hv | hv | hv | hv | hv | hv | hv | hv | hv | hv | hv | hv <;> subst hv <;> decide +kernel
  · decide +kernel

/-- Registration, initialisation from the environment, an accepted update, a refused one, a change of
the function, another update. -/
def session : List Call :=
  [.setCallback (some 1) 10, .init (.ok ()), .initWith none someEnv (.ok ()),
   .update (some { asked with sessionTimeout := 7200 }), .update (some { asked with sessionTimeout := 1 }),
   .setCallback (some 2) 20, .update (some defaults), .setCallback none 0, .update (some asked)]

example : (run (start defaults) session).log =
    [⟨1, 10, asked, { asked with sessionTimeout := 7200 }⟩, ⟨2, 20, { asked with sessionTimeout := 7200 }, defaults⟩] ∧
    inForce (run (start defaults) session) = some asked ∧ registered (session.take 7) = some (2, 20) := by
  decide +kernel

example : Documented { defaults with responseTimeout := 120000 } := by decide

example : ∀ o ∈ [Call.setCallback (some 1) 10, .init (.ok ()), .update (some defaults), .get], Plain o := by
  intro o ho
  simp only [List.mem_cons, List.not_mem_nil, or_false] at ho
  rcases ho with rfl | rfl | rfl | rfl <;> trivial

end Props
end Nostr.Config.Doc
