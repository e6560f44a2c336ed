import Verif.Config.Spec

/-! # Property theorems: library configuration (C44, C45, C77) -/

namespace Nostr.Config
open Nostr Spec

theorem guard_ok {p : Prop} [Decidable p] {e : Err} {x : Res Unit} :
    (if p then .err e else x) = .ok () ↔ ¬ p ∧ x = .ok () := by
  split <;> simp_all

theorem guard_or {p : Prop} [Decidable p] {x : Res Unit} (h : x = .ok () ∨ x = .err .invalidParam) :
    (if p then .err .invalidParam else x) = .ok () ∨
      (if p then .err .invalidParam else x) = .err .invalidParam := by
  split
  · exact .inr rfl
  · exact h

theorem validate_ok (c : Config) : validate c = .ok () ↔ InRange c := by
  unfold validate InRange
  simp only [guard_ok, and_true]
  omega

theorem validate_or (c : Config) : validate c = .ok () ∨ validate c = .err .invalidParam := by
  unfold validate
  repeat' apply guard_or
  exact .inl rfl

/-- The lock is free and the configuration is in range if initialised. -/
def Inv (s : State) : Prop := s.locked = false ∧ (s.initialized = true → InRange s.cfg)

theorem view_eq {s : State} (h : s.locked = false) :
    view s = if s.initialized then some s.cfg else none := by
  unfold view getCurrent
  simp only [h, Bool.false_eq_true, if_false]
  cases s.initialized <;> simp

theorem not_range {c : Config} (hv : validate c = .err .invalidParam) : ¬ InRange c :=
  fun h => by rw [(validate_ok c).2 h] at hv; simp at hv

theorem step_spec {s : State} (h : Inv s) (op : Op) :
    Inv (step s op) ∧ view (step s op) = specStep (view s) op := by
  obtain ⟨cfg, ini, cb, lk⟩ := s
  obtain ⟨hl, hi⟩ := h
  simp only at hl hi
  subst hl
  cases op with
  | init c env n =>
    cases ini with
    | true => exact ⟨⟨rfl, hi⟩, rfl⟩
    | false =>
      cases c with
      | some c =>
        rcases validate_or c with hv | hv
        · have hr := (validate_ok c).1 hv
          simp only [step, initWith, hv, specStep, view, getCurrent]
          simp [Inv, hr]
        · have hr := not_range hv
          simp only [step, initWith, hv, specStep, view, getCurrent]
          simp [Inv, hr]
      | none =>
        rcases validate_or (loadEnv env defaults) with hv | hv
        · have hr := (validate_ok _).1 hv
          simp only [step, initWith, hv, specStep, view, getCurrent]
          simp [Inv, hr]
        · have hr := not_range hv
          simp only [step, initWith, hv, specStep, view, getCurrent]
          simp [Inv, hr]
  | update c =>
    cases ini with
    | false => exact ⟨⟨rfl, hi⟩, rfl⟩
    | true =>
      have hi' := hi rfl
      rcases validate_or c with hv | hv
      · have hr := (validate_ok c).1 hv
        simp only [step, update, hv, specStep, view, getCurrent]
        cases cb <;> simp [Inv, hr]
      · have hr := not_range hv
        simp only [step, update, hv, specStep, view, getCurrent]
        simp [Inv, hr, hi']
  | setCallback b => cases ini <;> exact ⟨⟨rfl, hi⟩, rfl⟩
  | get => cases ini <;> exact ⟨⟨rfl, hi⟩, rfl⟩

theorem run_spec (ops : List Op) : ∀ s, Inv s →
    Inv (run s ops) ∧ view (run s ops) = ops.foldl specStep (view s) := by
  induction ops with
  | nil => intro s h; exact ⟨h, rfl⟩
  | cons op ops ih =>
    intro s h
    have h1 := step_spec h op
    have h2 := ih _ h1.1
    refine ⟨h2.1, ?_⟩
    rw [h1.2] at h2
    exact h2.2

theorem numeric_table : ∀ n < 256, Num.isDigit (UInt8.ofNat n) = true ∨ Num.isSpace (UInt8.ofNat n) = true ∨
    UInt8.ofNat n = 0x2d ∨ UInt8.ofNat n = 0x2b → (48 ≤ n ∧ n ≤ 57) ∨ (9 ≤ n ∧ n ≤ 13) ∨ UInt8.ofNat n = 0x20 ∨
    UInt8.ofNat n = 0x2b ∨ UInt8.ofNat n = 0x2d := by decide +kernel

theorem numeric_of {b : UInt8} (h : Num.isDigit b = true ∨ Num.isSpace b = true ∨ b = 0x2d ∨ b = 0x2b) : Numeric b := by
  have := numeric_table b.toNat b.toNat_lt
  rw [UInt8.ofNat_toNat] at this
  exact this h

theorem mem_while {p : UInt8 → Bool} {s : Bytes} {b : UInt8} (h : b ∈ s) : p b = true ∨ b ∈ s.dropWhile p := by
  induction s with
  | nil => simp at h
  | cons c s ih =>
    by_cases hc : p c = true
    · rw [List.dropWhile_cons_of_pos hc]
      rcases List.mem_cons.1 h with rfl | h
      · exact .inl hc
      · exact ih h
    · rw [List.dropWhile_cons_of_neg hc]; exact .inr h

/-- A byte that is not part of a number is left over behind the scanned number. -/
theorem scan_rest {s rest : Bytes} {neg : Bool} {m : Nat} (h : Num.scanDec s = some (neg, m, rest))
    (hb : ∃ b ∈ s, ¬ Numeric b) : rest ≠ [] := by
  obtain ⟨b, hb, hn⟩ := hb
  unfold Num.scanDec at h
  simp only at h
  have h1 : b ∈ s.dropWhile Num.isSpace := (mem_while hb).resolve_left fun h => hn (numeric_of (.inr (.inl h)))
  generalize hu : (if ((s.dropWhile Num.isSpace).head? == some 0x2d || (s.dropWhile Num.isSpace).head? == some 0x2b) = true
        then (s.dropWhile Num.isSpace).tail else s.dropWhile Num.isSpace) = u at h
  have h2 : b ∈ u := by
    rw [← hu]
    split
    · rename_i hs
      cases hd : s.dropWhile Num.isSpace with
      | nil => rw [hd] at h1; simp at h1
      | cons c t =>
        rw [hd] at h1 hs
        simp only [List.head?_cons, Bool.or_eq_true, beq_iff_eq, Option.some.injEq] at hs
        rcases List.mem_cons.1 h1 with rfl | h1
        · exact absurd (numeric_of (by rcases hs with h | h <;> simp [h])) hn
        · exact h1
    · exact h1
  have h3 := (mem_while (p := Num.isDigit) h2).resolve_left fun h => hn (numeric_of (.inl h))
  split at h
  · simp at h
  · simp only [Option.some.injEq, Prod.mk.injEq] at h
    rw [h.2.2] at h3
    intro h0
    rw [h0] at h3
    simp at h3

theorem strtoul_rest {t : Bytes} (hb : ∃ b ∈ t, ¬ Numeric b) : (Num.strtoul t).2 ≠ [] := by
  unfold Num.strtoul
  cases hs : Num.scanDec t with
  | none =>
    obtain ⟨b, hb, _⟩ := hb
    intro h0
    simp only at h0
    rw [h0] at hb
    simp at hb
  | some x =>
    obtain ⟨neg, m, rest⟩ := x
    have := scan_rest hs hb
    simp only
    split <;> exact this

theorem strtol_rest {t : Bytes} (hb : ∃ b ∈ t, ¬ Numeric b) : (Num.strtol t).2 ≠ [] := by
  unfold Num.strtol
  cases hs : Num.scanDec t with
  | none =>
    obtain ⟨b, hb, _⟩ := hb
    intro h0
    simp only at h0
    rw [h0] at hb
    simp at hb
  | some x =>
    obtain ⟨neg, m, rest⟩ := x
    exact scan_rest hs hb

theorem scan_decInt (n : Int) : Num.scanDec (Num.decInt n) = some (decide (n < 0), n.natAbs, []) := by
  unfold Num.decInt
  split
  · rename_i h
    have := Num.scanDec_minus (n := n.natAbs) (rest := []) (by simp)
    rw [List.append_nil] at this
    rw [this]; simp [h]
  · rename_i h
    have := Num.scanDec_decNat (n := n.natAbs) (rest := []) (by simp)
    rw [List.append_nil] at this
    rw [this]; simp [h]

theorem u32_var (env : Env) (name : Bytes) (d : Nat) :
    FromVar (env name) 0 (2 ^ 32 - 1) d (parseU32 env name d : Nat) := by
  unfold parseU32
  refine ⟨fun h => by rw [h], fun n h1 h2 h => ?_, fun t h hb => ?_, fun n hn h => ?_⟩
  · rw [h]
    simp only [Num.strtoul, scan_decInt]
    have : decide (n < 0) = false := by simpa using h1
    have hge : ¬ n.natAbs ≥ 2 ^ 64 := by omega
    have hgt : ¬ n.natAbs > 2 ^ 32 - 1 := by omega
    simp only [this, hge, hgt, Bool.false_eq_true, if_false, ne_eq, not_true_eq_false, or_self]
    omega
  · rw [h]
    simp only
    rw [if_pos (.inl (strtoul_rest hb))]
  · rw [h]
    simp only [Num.strtoul, scan_decInt]
    by_cases hneg : n < 0
    · have hge : ¬ n.natAbs ≥ 2 ^ 64 := by omega
      simp only [decide_eq_true hneg, hge, if_true, if_false]
      rw [if_pos (.inr (by omega))]
    · by_cases hge : n.natAbs ≥ 2 ^ 64
      · simp only [hge, if_true]; rw [if_pos (.inr (by omega))]
      · simp only [decide_eq_false hneg, hge, Bool.false_eq_true, if_false]; rw [if_pos (.inr (by omega))]

theorem i32_var (env : Env) (name : Bytes) (d : Int) :
    FromVar (env name) (-2 ^ 31) (2 ^ 31 - 1) d (parseI32 env name d) := by
  unfold parseI32
  refine ⟨fun h => by rw [h], fun n h1 h2 h => ?_, fun t h hb => ?_, fun n hn h => ?_⟩
  · rw [h]
    have := Num.strtol_decInt (i := n) (rest := []) (by omega) (by omega) (by simp)
    rw [List.append_nil] at this
    simp only [this]
    rw [if_neg (by simp; omega)]
  · rw [h]
    simp only
    rw [if_pos (.inl (strtol_rest hb))]
  · rw [h]
    simp only [Num.strtol, scan_decInt]
    have hv : (if decide (n < 0) = true then -(n.natAbs : Int) else (n.natAbs : Int)) = n := by
      by_cases hneg : n < 0
      · rw [decide_eq_true hneg, if_pos rfl]; omega
      · rw [decide_eq_false hneg]; simp only [Bool.false_eq_true, if_false]; omega
    rw [hv]
    rw [if_pos]
    right
    split
    · omega
    · split <;> omega

namespace Props

/-- C44: after every history of configuration calls from program start, a configuration that the
library hands out satisfies every documented range. -/
theorem C44_always_in_range (c0 : Config) (ops : List Op) (c : Config)
    (h : view (run (start c0) ops) = some c) : InRange c := by
  have h1 := (run_spec ops (start c0) ⟨rfl, by simp [start]⟩).1
  rw [view_eq h1.1] at h
  by_cases hi : (run (start c0) ops).initialized = true
  · rw [if_pos hi, Option.some.injEq] at h
    exact h ▸ h1.2 hi
  · rw [if_neg hi] at h; simp at h

/-- C44: in every reachable state an update is accepted iff the library is initialised and the value is
in range; a rejected update leaves the whole state unchanged. -/
theorem C44_update (c0 : Config) (ops : List Op) (c : Config) :
    let s := run (start c0) ops
    ((update s c some).2 = .ret (.ok ()) ↔ view s ≠ none ∧ InRange c) ∧
    ((update s c some).2 ≠ .ret (.ok ()) → (update s c some).1 = s) := by
  intro s
  have h1 := (run_spec ops (start c0) ⟨rfl, by simp [start]⟩).1
  have hl : s.locked = false := h1.1
  rw [view_eq hl]
  unfold update
  simp only [hl, Bool.false_eq_true, if_false]
  by_cases hin : s.initialized = true
  · simp only [hin, Bool.not_true, Bool.false_eq_true, if_false, if_true]
    rcases validate_or c with hv | hv
    · have hr := (validate_ok c).1 hv
      simp only [hv, hr]
      cases s.hasCallback <;> simp
    · have hr : ¬ InRange c := fun h => by rw [(validate_ok c).2 h] at hv; simp at hv
      simp [hv, hr]
  · have hin' : s.initialized = false := by simpa using hin
    simp [hin']

/-- C45: the configuration in force after any history is the one of the specification machine `specStep`
(first in-range initialisation, then the last in-range update). -/
theorem C45_refines (c0 : Config) (ops : List Op) :
    view (run (start c0) ops) = ops.foldl specStep none := by
  have h := (run_spec ops (start c0) ⟨rfl, by simp [start]⟩).2
  rwa [show view (start c0) = none from rfl] at h

/-- C45: loading the environment sets each setting from its own variable only: an unset, malformed or
out-of-range variable leaves the setting, a decimal number in range replaces it. -/
theorem C45_env (env : Env) (c : Config) (v : Bytes × (Config → Int) × Int × Int) (h : v ∈ variables) :
    FromVar (env v.1) v.2.2.1 v.2.2.2 (v.2.1 c) (v.2.1 (loadEnv env c)) := by
  simp only [variables, List.mem_cons, List.not_mem_nil, or_false] at h
  rcases h with h | h | h | h | h | h | h | h | h | h | h | h | h <;> subst h <;>
    first | exact u32_var env _ _ | exact i32_var env _ _

/-- C45: an empty variable is not ignored but read as 0, which makes initialisation fail. -/
theorem C45_env_empty_refuted : (loadEnv (fun k => if k = c!"NOSTR_MAX_TAGS" then some [] else none) defaults).maxTags = 0 ∧
    validate (loadEnv (fun k => if k = c!"NOSTR_MAX_TAGS" then some [] else none) defaults) = .err .invalidParam := by
  decide +kernel

example : (loadEnv (fun k => if k = c!"NOSTR_MAX_TAGS" then some (c!"12") else if k = c!"NOSTR_DEBUG" then some (c!"1x") else none)
    defaults) = { defaults with maxTags := 12 } := by decide +kernel

/-- C45: once initialised, every further initialisation returns success and changes nothing; before
initialisation updates fail with NOT_FOUND. -/
theorem C45_once (c0 : Config) (ops : List Op) :
    let s := run (start c0) ops
    (view s ≠ none → ∀ c env n, initWith s c env n = (s, .ret (.ok ()))) ∧
    (view s = none → ∀ c cb, (update s c cb) = (s, .ret (.err .notFound))) := by
  intro s
  have h1 := (run_spec ops (start c0) ⟨rfl, by simp [start]⟩).1
  have hl : s.locked = false := h1.1
  rw [view_eq hl]
  constructor
  · intro h c env n
    have hin : s.initialized = true := by
      cases hs : s.initialized <;> simp [hs] at h ⊢
    unfold initWith
    simp [hl, hin]
  · intro h c cb
    have hin : s.initialized = false := by
      cases hs : s.initialized <;> simp [hs] at h ⊢
    unfold update
    simp [hl, hin]

example : view (run (start defaults)
    [.update { defaults with maxTags := 7 }, .init (some { defaults with maxTags := 0 }) (fun _ => none) (.ok ()),
     .init none (fun k => if k = c!"NOSTR_MAX_TAGS" then some (c!" 250") else none) (.ok ()),
     .init (some defaults) (fun _ => none) (.ok ()),
     .update { defaults with maxSessions := 10001 }]) = some { defaults with maxTags := 250 } := by
  decide +kernel

example : view (run (start defaults) [.init none (fun _ => none) (.ok ()),
    .update { defaults with maxSessions := 10000 }]) = some { defaults with maxSessions := 10000 } := by
  decide +kernel

/-- C77 refuted: a registered callback that asks for the current configuration (or updates it, or
replaces the callback) never returns, because the update holds the lock while calling it.  Stated for
every state with an initialised library and a callback, and every in-range new value. -/
theorem C77_callback_deadlock_refuted (s : State) (c : Config) (hl : s.locked = false)
    (hi : s.initialized = true) (hc : s.hasCallback = true) (hr : InRange c) :
    let getCb : State → Option State := fun t => match getCurrent t with
      | (t', .ret _) => some t'
      | (_, .deadlock) => none
    let setCb : State → Option State := fun t => match setCallback t false with
      | (t', .ret _) => some t'
      | (_, .deadlock) => none
    (update s c getCb).2 = .deadlock ∧ (update s c setCb).2 = .deadlock := by
  intro getCb setCb
  unfold update
  simp only [hl, hi, hc, (validate_ok c).2 hr]
  constructor <;> rfl

/-- C77, the part that holds: a callback that does not call the configuration API (it leaves the state
alone) is harmless: the update succeeds and releases the lock. -/
theorem C77_inert_callback_partial (s : State) (c : Config) (hl : s.locked = false)
    (hi : s.initialized = true) (hr : InRange c) :
    update s c some = ({ s with cfg := c }, .ret (.ok ())) := by
  unfold update
  simp only [hl, hi, (validate_ok c).2 hr]
  cases s.hasCallback <;> simp [hl]

end Props
end Nostr.Config
