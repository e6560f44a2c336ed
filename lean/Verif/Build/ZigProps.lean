import Verif.Build.Zig
import Verif.Build.Props

/-! # C199: the build with Zig, and the presets -/

namespace Nostr.Build.Props
open Nostr Nostr.Build

/-! ## Specification -/

/-- The definition is in the library that Zig builds. -/
def InZig (windows : Bool) (q : Def) : Prop := zigSource q.file = true ∧ q.guard.eval (zigVars windows) = true

/-- Every name used in the library that Zig builds has a definition there. -/
def ZigComplete (windows : Bool) : Prop :=
  ∀ e ∈ names, ∀ r ∈ e.refs, zigSource r.file = true → r.guard.eval (zigVars windows) = true →
    ∃ q ∈ e.defs, q.Seen r.file ∧ InZig windows q

/-! ## Zig -/

/-- `InZig`, decided. -/
def inZigB (windows : Bool) (q : Def) : Bool := zigSource q.file && q.guard.eval (zigVars windows)

theorem inZigB_iff (w : Bool) (q : Def) : inZigB w q = true ↔ InZig w q := by simp [inZigB, InZig]

/-- The test behind `C199_zig`. -/
def zigResolved (w : Bool) : Bool := names.all fun e => e.refs.all fun r =>
  !(zigSource r.file && r.guard.eval (zigVars w)) ||
  e.defs.any fun q => (!q.isStatic || decide (q.file = r.file)) && inZigB w q

/-- The test behind the second part of `C199_zig`. -/
def zigWorks (w : Bool) : Bool := names.all fun e => e.declared.isNone ||
  e.defs.all fun q => !(decide (q.file = .nip13) || decide (q.file = .zap)) ||
    e.defs.any fun p => !p.isStatic && inZigB w p && decide (p.body = .works)

/-- **C199, the build with Zig.** For every target: each function a compiled file uses is defined; the NIPs the library
reports are 13 and 57, and every declared function of their files is there and works. -/
theorem C199_zig (w : Bool) :
    ZigComplete w ∧
    (∀ n : Int, Features.supported (toConfig (zigVars w)) n = true ↔ n = 13 ∨ n = 57) ∧
    (∀ e ∈ names, e.declared.isSome = true → ∀ q ∈ e.defs, q.file = .nip13 ∨ q.file = .zap →
      ∃ p ∈ e.defs, p.isStatic = false ∧ InZig w p ∧ p.body = .works) := by
  refine ⟨?_, ?_, ?_⟩
  · have h : zigResolved w = true := by cases w <;> decide +kernel
    intro e he r hr hs hg
    have h1 := List.all_eq_true.1 (List.all_eq_true.1 h e he) r hr
    rw [hs, hg] at h1
    obtain ⟨q, hq, h2⟩ := List.any_eq_true.1 h1
    rw [Bool.and_eq_true] at h2
    refine ⟨q, hq, ?_, (inZigB_iff w q).1 h2.2⟩
    intro hst
    simpa [hst] using h2.1
  · intro n
    constructor
    · intro h
      by_cases h13 : n = 13
      · exact .inl h13
      by_cases h57 : n = 57
      · exact .inr h57
      exfalso
      simp [Features.supported, toConfig, zigVars, d, G.eval, h13, h57] at h
    · rintro (rfl | rfl) <;> cases w <;> decide +kernel
  · have h : zigWorks w = true := by cases w <;> decide +kernel
    intro e he hd q hq hf
    have h1 := List.all_eq_true.1 h e he
    rw [Bool.or_eq_true] at h1
    rcases h1 with h1 | h1
    · rw [Option.isNone_iff_eq_none] at h1; rw [h1] at hd; cases hd
    have h2 := List.all_eq_true.1 h1 q hq
    have h3 : (decide (q.file = .nip13) || decide (q.file = .zap)) = true := by
      rcases hf with hf | hf <;> simp [hf]
    rw [h3] at h2
    obtain ⟨p, hp, h4⟩ := List.any_eq_true.1 h2
    simp only [Bool.and_eq_true, Bool.not_eq_true', decide_eq_true_eq] at h4
    exact ⟨p, hp, h4.1.1, (inZigB_iff w p).1 h4.1.2, h4.2⟩

/-- Names of the table that the Zig build uses, and declared functions it has. -/
example : (names.filter fun e => e.declared.isSome && e.defs.any fun q => inZigB false q).length = 115 ∧
    (names.filter fun e => e.refs.any fun r => zigSource r.file && r.guard.eval (zigVars false)).length ≥ 60 := by
  decide +kernel

/-- **C199, reports of the Zig build.** The library says that the relay protocol is available, and
`nostr_client_msg_parse`, which parses what a client says, is not in it.
The header switches NIP-18 on, and `nostr_repost_create` is not in the library.
None of the declared functions of NIP-18, of NIP-26 (which is switched on as well), and of filters, messages and NIP-11 documents
of the relay protocol is there. -/
theorem C199_zig_refuted (w : Bool) :
    Features.relayProtocolAvailable (toConfig (zigVars w)) = true ∧
    (∃ e ∈ names, e.name = "nostr_client_msg_parse" ∧ ∀ q ∈ e.defs, ¬ InZig w q) ∧
    zigVars w .nip18 = true ∧
    (∃ e ∈ names, e.name = "nostr_repost_create" ∧ ∀ q ∈ e.defs, ¬ InZig w q) ∧
    zigVars w .nip26 = true ∧
    (∀ e ∈ names, e.declared.isSome = true → ∀ q ∈ e.defs, q.file ∈ [File.nip18, .nip26, .relay_filter, .relay_message, .relay_nip11] →
      ∀ p ∈ e.defs, ¬ InZig w p) := by
  refine ⟨by cases w <;> decide +kernel, ⟨clientMsgParse, mem_client, by decide +kernel, ?_⟩, rfl,
    ⟨repostCreate, mem_repost, by decide +kernel, ?_⟩, rfl, ?_⟩
  · have h : (clientMsgParse.defs.all fun q => !inZigB w q) = true := by cases w <;> decide +kernel
    intro q hq hz
    have := List.all_eq_true.1 h q hq
    rw [(inZigB_iff w q).2 hz] at this; cases this
  · have h : (repostCreate.defs.all fun q => !inZigB w q) = true := by cases w <;> decide +kernel
    intro q hq hz
    have := List.all_eq_true.1 h q hq
    rw [(inZigB_iff w q).2 hz] at this; cases this
  · have h : (names.all fun e => e.declared.isNone || e.defs.all fun q =>
        !decide (q.file ∈ [File.nip18, .nip26, .relay_filter, .relay_message, .relay_nip11]) || e.defs.all fun p => !inZigB w p) = true := by
      cases w <;> decide +kernel
    intro e he hd q hq hf p hp hz
    have h1 := List.all_eq_true.1 h e he
    rw [Bool.or_eq_true] at h1
    rcases h1 with h1 | h1
    · rw [Option.isNone_iff_eq_none] at h1; rw [h1] at hd; cases hd
    have h2 := List.all_eq_true.1 h1 q hq
    rw [decide_eq_true hf] at h2
    have h3 := List.all_eq_true.1 h2 p hp
    rw [(inZigB_iff w p).2 hz] at h3; cases h3

/-- Declared functions of those files. -/
example : (names.filter fun e => e.declared.isSome && e.defs.any fun q =>
    decide (q.file ∈ [File.nip18, .nip26, .relay_filter, .relay_message, .relay_nip11])).length ≥ 40 := by
  decide +kernel

/-! ## Presets -/

/-- **C199, the presets.** On every machine: a preset that the configuration accepts gives a complete library, provided
cJSON is installed or the preset does not insist on it (even with values that no preset has). Partial: the four that
insist are accepted without it (`C199_presets_refuted`). -/
theorem C199_presets_partial (p : Preset) (f : Found) (x : Vars)
    (h : configure p.options f = some x) (hj : f.cjson = true ∨ p.json ≠ some true) : Complete x := by
  have hc := (C199_complete_partial h).2
  apply hc
  unfold configure at h
  by_cases h1 : (!backend p.options f && !f.win32) = true
  · rw [if_pos h1] at h; cases h
  rw [if_neg h1] at h
  by_cases h2 : ((needNoscrypt.any fun v => kept p.options f v) && !haveNoscrypt p.options f) = true
  · rw [if_pos h2] at h; cases h
  rw [if_neg h2] at h
  by_cases h3 : (kept p.options f .hdKeys && !backend p.options f) = true
  · rw [if_pos h3] at h; cases h
  rw [if_neg h3] at h
  by_cases h4 : (relayOn p.options f && !f.libwebsockets) = true
  · rw [if_pos h4] at h; cases h
  rw [if_neg h4] at h
  by_cases h5 : (relayOn p.options f && !startJson p.options f && !f.cjson) = true
  · rw [if_pos h5] at h; cases h
  rw [if_neg h5] at h
  have hx := (Option.some.inj h).symm
  subst hx
  have off : ∀ v, p.options.on v = false → kept p.options f v = false := by
    intro v hv
    simp [kept, asked, hv, Preset.options] at *
    intro h; exact absurd (h ▸ hv) (by simp)
  refine ⟨?_, ?_, ?_, ?_⟩
  · intro hh
    simp only [final] at hh
    rw [off .nip17 rfl, off .nip47 rfl, off .nip59 rfl] at hh
    simp at hh
  · intro _
    simp [final, kept, asked, Preset.options, standard, droppedList]
  · intro hh
    simp only [final] at hh
    rw [off .hdKeys rfl] at hh
    cases hh
  · intro hr
    simp only [final] at hr ⊢
    have hcj : f.cjson = true := by
      cases hcj : f.cjson with
      | true => rfl
      | false =>
        exfalso
        rw [hr, hcj] at h5
        rcases hj with hj | hj
        · rw [hcj] at hj; cases hj
        · apply h5
          have : startJson p.options f = false := by
            unfold startJson
            have hjs : p.options.json = p.json := rfl
            rw [hjs]
            cases hpj : p.json with
            | none => simp [hcj]
            | some b => cases b with
              | true => exact absurd hpj hj
              | false => rfl
          rw [this]; rfl
    rw [hcj]
    simp [jsonOn, hr, hcj]

/-- A machine of each kind on which presets are accepted. -/
example : (presets.all fun p => after (configure p.options linux) fun _ => true) = true ∧
    (after (configure (presets[4]).options { linux with win32 := true, msvc := true }) fun x =>
      x .relay && x .haveCjson) = true := by
  decide +kernel

/-- **C199, presets that insist on cJSON.** `debug-enhanced` and the others with cJSON are accepted on a machine that has
everything but cJSON, and the library is not complete. -/
theorem C199_presets_refuted :
    ∀ p ∈ presets, p.json = some true →
      ∃ x, configure p.options { linux with cjson := false } = some x ∧ ¬ Complete x := by
  intro p hp hj
  have h : (presets.all fun p => !decide (p.json = some true) ||
      misfitB (configure p.options { linux with cjson := false })) = true := by decide +kernel
  have h1 := List.all_eq_true.1 h p hp
  rw [hj] at h1
  exact misfit_incomplete h1

example : (presets.filter fun p => p.json = some true).length = 4 := by decide +kernel

end Nostr.Build.Props
