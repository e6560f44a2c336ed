import Verif.Build.Check
import Verif.Build.Spec

/-! # C199: complete builds -/

namespace Nostr.Build.Props
open Nostr Nostr.Build

/-! ## What the configuration guarantees -/

/-- What holds of every accepted configuration, as a condition. -/
def known : G :=
  .and (.or (.has .haveNoscrypt) (.not (.or (.has .nip04) (.or (.has .nip17) (.or (.has .nip44) (.or (.has .nip46)
    (.or (.has .nip47) (.has .nip59))))))))
  (.and (.or (.has .cryptoNoscrypt) (.not (.has .haveNoscrypt)))
  (.and (.or (.and (.has .haveCjson) (.has .jsonEnhanced)) (.and (.not (.has .haveCjson)) (.not (.has .jsonEnhanced))))
  (.and (.or (.has .haveLws) (.not (.has .relay)))
  (.not (.has .esp)))))

/-- `Fits` as a condition. -/
def fits : G :=
  .and (.or (.or (.has .nip44) (.has .nip04)) (.not (.or (.has .nip17) (.or (.has .nip47) (.has .nip59)))))
  (.and (.or (.has .encoding) (.not (.or (.has .nip18) (.has .nip49))))
  (.and (.or (.has .haveSecp) (.not (.has .hdKeys)))
   (.or (.has .haveCjson) (.not (.has .relay)))))

theorem fits_eval (x : Vars) : fits.eval x = true ↔ Fits x := by
  simp only [fits, G.eval, Fits]
  generalize x .nip44 = a, x .nip04 = b, x .nip17 = c, x .nip47 = e, x .nip59 = g
  generalize x .encoding = a2, x .nip18 = b2, x .nip49 = c2, x .haveSecp = a3, x .hdKeys = b3
  generalize x .haveCjson = a4, x .relay = b4
  constructor
  · intro h
    simp only [Bool.and_eq_true] at h
    obtain ⟨h1, h2, h3, h4⟩ := h
    refine ⟨?_, ?_, ?_, ?_⟩
    · revert h1; revert a b c e g; decide
    · revert h2; revert a2 b2 c2; decide
    · revert h3; revert a3 b3; decide
    · revert h4; revert a4 b4; decide
  · rintro ⟨h1, h2, h3, h4⟩
    simp only [Bool.and_eq_true]
    refine ⟨?_, ?_, ?_, ?_⟩
    · revert h1; revert a b c e g; decide
    · revert h2; revert a2 b2 c2; decide
    · revert h3; revert a3 b3; decide
    · revert h4; revert a4 b4; decide

theorem known_eval {o : Options} {f : Found} {x : Vars} (h : configure o f = some x) : known.eval x = true := by
  unfold configure at h
  by_cases h1 : (!backend o f && !f.win32) = true
  · rw [if_pos h1] at h; cases h
  rw [if_neg h1] at h
  by_cases h2 : ((needNoscrypt.any fun v => kept o f v) && !haveNoscrypt o f) = true
  · rw [if_pos h2] at h; cases h
  rw [if_neg h2] at h
  by_cases h3 : (kept o f .hdKeys && !backend o f) = true
  · rw [if_pos h3] at h; cases h
  rw [if_neg h3] at h
  by_cases h4 : (relayOn o f && !f.libwebsockets) = true
  · rw [if_pos h4] at h; cases h
  rw [if_neg h4] at h
  by_cases h5 : (relayOn o f && !startJson o f && !f.cjson) = true
  · rw [if_pos h5] at h; cases h
  rw [if_neg h5] at h
  have hx := (Option.some.inj h).symm
  subst hx
  have hcn : kept o f .cryptoNoscrypt = o.on .cryptoNoscrypt := by
    simp [kept, asked, droppedList, allNipsList]
  have hjs : jsonOn o f = true → f.cjson = true := by
    unfold jsonOn; intro h; exact (Bool.and_eq_true _ _ ▸ h).2
  have hns : haveNoscrypt o f = true → o.on .cryptoNoscrypt = true := by
    unfold haveNoscrypt; intro h; exact (Bool.and_eq_true _ _ ▸ h).1
  simp only [known, G.eval, final, hcn]
  simp only [needNoscrypt, List.any_cons, List.any_nil] at h2
  simp only [Bool.and_eq_true]
  refine ⟨?_, ?_, ?_, ?_, rfl⟩
  · revert h2
    generalize kept o f .nip04 = a1, kept o f .nip17 = a2, kept o f .nip44 = a3, kept o f .nip46 = a4
    generalize kept o f .nip47 = a5, kept o f .nip59 = a6, haveNoscrypt o f = a7
    revert a1 a2 a3 a4 a5 a6 a7; decide
  · revert hns
    generalize haveNoscrypt o f = a, o.on .cryptoNoscrypt = b
    revert a b; decide
  · revert hjs
    generalize jsonOn o f = a, f.cjson = b
    revert a b; decide
  · revert h4
    generalize relayOn o f = a, f.libwebsockets = b
    revert a b; decide

/-! ## Conditions of definitions and uses -/

/-- `Def.Live` as a condition. -/
def dcond (q : Def) : G := .and (source q.file) q.guard
/-- `Ref.Live` as a condition. -/
def rcond (r : Ref) : G := .and (source r.file) r.guard
/-- One of the conditions. -/
def orAll : List G → G
  | [] => .ff
  | g :: gs => .or g (orAll gs)

theorem dcond_eval (x : Vars) (q : Def) : (dcond q).eval x = true ↔ q.Live x := by
  simp [dcond, G.eval, Def.Live]

theorem rcond_eval (x : Vars) (r : Ref) : (rcond r).eval x = true ↔ r.Live x := by
  simp [rcond, G.eval, Ref.Live]

theorem orAll_eval (x : Vars) (l : List G) : (orAll l).eval x = true ↔ ∃ g ∈ l, g.eval x = true := by
  induction l with
  | nil => simp [orAll, G.eval]
  | cons a l ih => simp [orAll, G.eval, ih]

/-- The test behind `C199_complete_partial`: a use whose condition holds has a visible definition whose condition
holds. -/
def resolved (e : Name) (r : Ref) : Bool :=
  (G.and (rcond r) (.and fits known)).gives
    (orAll ((e.defs.filter fun q => !q.isStatic || decide (q.file = r.file)).map dcond))

theorem all_resolved : (names.all fun e => e.refs.all fun r => resolved e r) = true := by decide +kernel

/-- A name and a use of it that stay without a definition under the condition. -/
def unresolved (g : G) (e : Name) (r : Ref) : Bool :=
  g.gives (.and (rcond r) (.not (orAll (e.defs.map dcond))))

/-- Whether some use stays without a definition. -/
def broken (g : G) : Bool := names.any fun e => e.refs.any fun r => unresolved g e r

theorem broken_complete {g : G} (h : broken g = true) (x : Vars) (hg : g.eval x = true) : ¬ Complete x := by
  intro hc
  obtain ⟨e, he, h2⟩ := List.any_eq_true.1 h
  obtain ⟨r, hr, h3⟩ := List.any_eq_true.1 h2
  have h4 := G.gives_eval h3 x hg
  simp only [G.eval, Bool.and_eq_true, Bool.not_eq_true'] at h4
  obtain ⟨q, hq, _, hl⟩ := hc e he r hr ((rcond_eval x r).1 (by simpa [rcond, G.eval] using h4.1))
  have : (orAll (e.defs.map dcond)).eval x = true :=
    (orAll_eval x _).2 ⟨dcond q, List.mem_map.2 ⟨q, hq, rfl⟩, (dcond_eval x q).2 hl⟩
  rw [this] at h4
  exact Bool.noConfusion h4.2

/-- Every condition under which the sources do not fit. -/
def misfits : List G :=
  [ .and (.has .nip17) (.and (.not (.has .nip44)) (.not (.has .nip04))),
    .and (.has .nip47) (.and (.not (.has .nip44)) (.not (.has .nip04))),
    .and (.has .nip59) (.and (.not (.has .nip44)) (.not (.has .nip04))),
    .and (.has .nip18) (.not (.has .encoding)),
    .and (.has .nip49) (.not (.has .encoding)),
    .and (.has .hdKeys) (.not (.has .haveSecp)),
    .and (.has .relay) (.not (.has .haveCjson)) ]

theorem misfits_broken : (misfits.all fun g => broken (.and g known)) = true := by decide +kernel

theorem misfits_fits : (G.gives .tt (.or fits (orAll misfits))) = true := by decide +kernel

/-! ## C199 -/

/-- **C199, every call has a target.** Whatever options the user chooses and whatever libraries are found: if the
configuration is accepted, then every function that a compiled file uses is defined in a compiled file (or in the same
file, if it is `static`), exactly if four conditions hold — NIP-17, NIP-47 and NIP-59 only with NIP-44 or NIP-04;
NIP-18 and NIP-49 only with the encodings; HD keys only with secp256k1; relays only with cJSON. Partial: the
configuration does not refuse the others (`C199_accepted_refuted`). -/
theorem C199_complete_partial {o : Options} {f : Found} {x : Vars} (h : configure o f = some x) :
    Complete x ↔ Fits x := by
  have hk := known_eval h
  constructor
  · intro hc
    rw [← fits_eval]
    have h1 := G.gives_eval misfits_fits x rfl
    simp only [G.eval, Bool.or_eq_true] at h1
    rcases h1 with h1 | h1
    · exact h1
    · exfalso
      obtain ⟨g, hg, hge⟩ := (orAll_eval x _).1 h1
      have := List.all_eq_true.1 misfits_broken g hg
      exact broken_complete this x (by simp [G.eval, hge, hk]) hc
  · intro hf e he r hr hl
    have h1 := List.all_eq_true.1 (List.all_eq_true.1 all_resolved e he) r hr
    have h2 := G.gives_eval h1 x (by
      simp only [G.eval, Bool.and_eq_true]
      exact ⟨(rcond_eval x r).2 hl, (fits_eval x).2 hf, hk⟩)
    obtain ⟨g, hg, hge⟩ := (orAll_eval x _).1 h2
    obtain ⟨q, hq, rfl⟩ := List.mem_map.1 hg
    obtain ⟨hq1, hq2⟩ := List.mem_filter.1 hq
    refine ⟨q, hq1, ?_, (dcond_eval x q).1 hge⟩
    intro hs
    simpa [hs] using hq2

/-- The libraries of a well equipped Linux machine. -/
def linux : Found :=
  { win32 := false, msvc := false, noscrypt := true, secp256k1 := true, cjson := true, libwebsockets := true,
    utf8proc := true }

/-- The default options: CMakeLists.txt:87-136. -/
def defaults : Options :=
  { on := fun
      | .nip04 | .nip17 | .nip44 | .nip46 | .nip47 | .nip59 | .hdKeys => false
      | _ => true
    allNips := false, mbedtls := false, json := none }

/-- The default options with some changed. -/
def with_ (l : List (Var × Bool)) : Options :=
  { defaults with on := fun v => (l.lookup v).getD (defaults.on v) }

/-- `Fits`, decided. -/
def fitsB (x : Option Vars) : Bool := match x with
  | some x => fits.eval x
  | none => false

/-- The configuration is accepted but the sources do not fit together. -/
def misfitB (x : Option Vars) : Bool := match x with
  | some x => !fits.eval x
  | none => false

theorem misfit_incomplete {o : Options} {f : Found} (h : misfitB (configure o f) = true) :
    ∃ x, configure o f = some x ∧ ¬ Complete x := by
  cases hc : configure o f with
  | none => rw [hc] at h; cases h
  | some x =>
    rw [hc] at h
    refine ⟨x, rfl, ?_⟩
    rw [C199_complete_partial hc, ← fits_eval]
    simpa [misfitB] using h

/-- The default configuration is accepted and complete; so is the one with all NIPs. -/
example : ∃ x, configure defaults linux = some x ∧ Complete x := by
  have h : fitsB (configure defaults linux) = true := by decide +kernel
  cases hc : configure defaults linux with
  | none => rw [hc] at h; cases h
  | some x => rw [hc] at h; exact ⟨x, rfl, (C199_complete_partial hc).2 ((fits_eval x).1 h)⟩

example : ∃ x, configure { defaults with allNips := true } linux = some x ∧ Complete x := by
  have h : fitsB (configure { defaults with allNips := true } linux) = true := by decide +kernel
  cases hc : configure { defaults with allNips := true } linux with
  | none => rw [hc] at h; cases h
  | some x => rw [hc] at h; exact ⟨x, rfl, (C199_complete_partial hc).2 ((fits_eval x).1 h)⟩

/-- **C199, what the configuration lets through.** With everything installed, the default options with NIP-17, NIP-47
or NIP-59 switched on, with the encodings switched off, or with HD keys switched on and secp256k1 off are accepted and
leave uses without definitions; and without cJSON, asking for JSON explicitly gets relays accepted that need it. -/
theorem C199_accepted_refuted :
    (∃ x, configure (with_ [(.nip17, true)]) linux = some x ∧ ¬ Complete x) ∧
    (∃ x, configure (with_ [(.nip47, true)]) linux = some x ∧ ¬ Complete x) ∧
    (∃ x, configure (with_ [(.nip59, true)]) linux = some x ∧ ¬ Complete x) ∧
    (∃ x, configure (with_ [(.encoding, false)]) linux = some x ∧ ¬ Complete x) ∧
    (∃ x, configure (with_ [(.hdKeys, true), (.cryptoSecp, false)]) linux = some x ∧ ¬ Complete x) ∧
    (∃ x, configure { defaults with json := some true } { linux with cjson := false } = some x ∧ ¬ Complete x) :=
  ⟨misfit_incomplete (by decide +kernel), misfit_incomplete (by decide +kernel), misfit_incomplete (by decide +kernel),
    misfit_incomplete (by decide +kernel), misfit_incomplete (by decide +kernel),
    misfit_incomplete (by decide +kernel)⟩

/-! ### No name twice -/

/-- Two definitions of a list that collide are never compiled together. -/
def apart : List Def → Bool
  | [] => true
  | q :: l => (l.all fun p => !(!q.isStatic && !p.isStatic || decide (q.file = p.file)) ||
      (G.always 40 (G.clean (.or (.not (dcond q)) (.not (dcond p)))))) && apart l

theorem all_apart : (names.all fun e => apart e.defs) = true := by decide +kernel

theorem apart_pairwise (x : Vars) : ∀ l : List Def, apart l = true →
    l.Pairwise fun p q => Collide p q → ¬ (p.Live x ∧ q.Live x)
  | [], _ => List.Pairwise.nil
  | q :: l, h => by
    unfold apart at h
    rw [Bool.and_eq_true] at h
    refine List.Pairwise.cons ?_ (apart_pairwise x l h.2)
    intro p hp hcol hl
    have h1 := List.all_eq_true.1 h.1 p hp
    rw [Bool.or_eq_true] at h1
    rcases h1 with h1 | h1
    · rcases hcol with ⟨a, b⟩ | a <;> simp_all
    · have := G.always_eval 40 _ x h1
      rw [G.clean_eval] at this
      simp only [G.eval, Bool.or_eq_true, Bool.not_eq_true'] at this
      rcases this with this | this
      · rw [(dcond_eval x q).2 hl.1] at this; cases this
      · rw [(dcond_eval x p).2 hl.2] at this; cases this

/-- **C199, no name twice.** Whatever the variables are, even in combinations the configuration never reaches, of two
definitions of a name in the same file or both visible outside at most one is compiled. -/
theorem C199_once (x : Vars) (e : Name) (he : e ∈ names) :
    e.defs.Pairwise fun p q => Collide p q → ¬ (p.Live x ∧ q.Live x) :=
  apart_pairwise x e.defs (List.all_eq_true.1 all_apart e he)

theorem mem_names {l : List Name} (hl : l = names_nip44 ∨ l = names_bech32 ∨ l = names_nip18 ∨ l = names_relay_message)
    {e : Name} (h : e ∈ l) : e ∈ names := by
  unfold names
  simp only [List.mem_append]
  rcases hl with rfl | rfl | rfl | rfl <;> simp [h]

/-- `nostr_nip04_encrypt` in the table. -/
def nip04Encrypt : Name := names_nip44[7]
/-- `nostr_nip44_encrypt` in the table. -/
def nip44Encrypt : Name := names_nip44[5]
/-- `nostr_key_to_bech32` in the table. -/
def keyToBech32 : Name := names_bech32[8]
/-- `nostr_repost_create` in the table. -/
def repostCreate : Name := names_nip18[2]
/-- `nostr_client_msg_parse` in the table. -/
def clientMsgParse : Name := names_relay_message[1]

theorem mem_nip04 : nip04Encrypt ∈ names := mem_names (.inl rfl) (List.getElem_mem _)
theorem mem_nip44 : nip44Encrypt ∈ names := mem_names (.inl rfl) (List.getElem_mem _)
theorem mem_bech32 : keyToBech32 ∈ names := mem_names (.inr (.inl rfl)) (List.getElem_mem _)
theorem mem_repost : repostCreate ∈ names := mem_names (.inr (.inr (.inl rfl))) (List.getElem_mem _)
theorem mem_client : clientMsgParse ∈ names := mem_names (.inr (.inr (.inr rfl))) (List.getElem_mem _)

example : ∃ e ∈ names, e.name = "nostr_nip04_encrypt" ∧ e.defs.length = 3 :=
  ⟨nip04Encrypt, mem_nip04, by decide +kernel, by decide +kernel⟩

/-! ### Functions of features that are switched off -/

/-- The test behind `C199_present`. -/
def placed (e : Name) : Bool := e.declared.isNone || match e.defs with
  | [] => false
  | q :: l => ((q :: l).all fun p => !p.isStatic && decide (p.file = q.file)) &&
      (G.and (source q.file) known).gives (orAll ((q :: l).map dcond))

theorem all_placed : (names.all placed) = true := by decide +kernel

/-- **C199, a declared function is in the library exactly if its file is.** All definitions of a function that a public
header declares are in one file and visible outside; in an accepted configuration the library has the function if and
only if CMake compiles that file. -/
theorem C199_present {o : Options} {f : Found} {x : Vars} (h : configure o f = some x) (e : Name) (he : e ∈ names)
    (hd : e.declared.isSome = true) :
    e.defs ≠ [] ∧ ∀ q ∈ e.defs, (Present x e ↔ (source q.file).eval x = true) := by
  have h1 := List.all_eq_true.1 all_placed e he
  unfold placed at h1
  rw [Bool.or_eq_true] at h1
  rcases h1 with h1 | h1
  · rw [Option.isNone_iff_eq_none] at h1; rw [h1] at hd; cases hd
  cases hds : e.defs with
  | nil => rw [hds] at h1; cases h1
  | cons q₀ l =>
    rw [hds] at h1
    simp only [] at h1
    rw [Bool.and_eq_true] at h1
    have hfile : ∀ q ∈ q₀ :: l, q.isStatic = false ∧ q.file = q₀.file := by
      intro q hq
      have := List.all_eq_true.1 h1.1 q hq
      simpa using this
    refine ⟨List.cons_ne_nil _ _, ?_⟩
    intro q hq
    rw [(hfile q hq).2]
    constructor
    · rintro ⟨p, hp, _, hl⟩
      rw [hds] at hp
      rw [← (hfile p hp).2]
      exact hl.1
    · intro hs
      have h2 := G.gives_eval h1.2 x (by simp [G.eval, hs, known_eval h])
      obtain ⟨g, hg, hge⟩ := (orAll_eval x _).1 h2
      obtain ⟨p, hp, rfl⟩ := List.mem_map.1 hg
      exact ⟨p, hds ▸ hp, (hfile p hp).1, (dcond_eval x p).1 hge⟩

/-- The conditions under which a placeholder is compiled after all. -/
def excuse (q : Def) : G := match q.body with
  | .works => .tt
  | .notSupported => if q.file = .nip44 then .has .haveMbedtls else .ff
  | .invalidJson => if [File.relay_protocol, .relay_filter, .relay_message, .relay_nip11].contains q.file
      then .not (.has .haveCjson) else .ff
  | _ => .ff

theorem all_excused :
    (names.all fun e => e.declared.isNone || e.defs.all fun q => (G.and (dcond q) known).gives (excuse q)) = true := by
  decide +kernel

/-- **C199, placeholders.** In an accepted configuration every declared function that is in the library is the real one,
except NIP-04 (and NIP-44's placeholders are never compiled) in a build with mbedTLS, which answers
`NOSTR_ERR_NOT_SUPPORTED`, and the JSON functions of the relay protocol in a build without cJSON, which answer
`NOSTR_RELAY_ERR_INVALID_JSON`. None of the other placeholders of the sources is ever compiled. -/
theorem C199_placeholders {o : Options} {f : Found} {x : Vars} (h : configure o f = some x) (e : Name) (he : e ∈ names)
    (hd : e.declared.isSome = true) (q : Def) (hq : q ∈ e.defs) (hl : q.Live x) :
    q.body = .works ∨
    (q.body = .notSupported ∧ q.file = .nip44 ∧ x .haveMbedtls = true) ∨
    (q.body = .invalidJson ∧ x .haveCjson = false ∧
      q.file ∈ [File.relay_protocol, .relay_filter, .relay_message, .relay_nip11]) := by
  have h1 := List.all_eq_true.1 all_excused e he
  simp only [Bool.or_eq_true] at h1
  rcases h1 with h1 | h1
  · rw [Option.isNone_iff_eq_none] at h1; rw [h1] at hd; cases hd
  have h2 := G.gives_eval (List.all_eq_true.1 h1 q hq) x (by
    simp only [G.eval, Bool.and_eq_true]; exact ⟨(dcond_eval x q).2 hl, known_eval h⟩)
  unfold excuse at h2
  cases hb : q.body <;> rw [hb] at h2 <;> simp only [] at h2
  · exact .inl rfl
  · by_cases hf : q.file = .nip44
    · rw [if_pos hf] at h2; exact .inr (.inl ⟨rfl, hf, h2⟩)
    · rw [if_neg hf] at h2; cases h2
  · by_cases hf : [File.relay_protocol, .relay_filter, .relay_message, .relay_nip11].contains q.file = true
    · rw [if_pos hf] at h2
      simp only [G.eval, Bool.not_eq_true'] at h2
      exact .inr (.inr ⟨rfl, h2, by simpa using hf⟩)
    · rw [if_neg hf] at h2; cases h2
  all_goals cases h2

/-- **C199, nothing declared is missing where everything is on.** In an accepted configuration with cJSON and without
mbedTLS every declared function whose file is compiled is in the library and works. -/
theorem C199_works {o : Options} {f : Found} {x : Vars} (h : configure o f = some x) (hj : x .haveCjson = true)
    (hm : x .haveMbedtls = false) (e : Name) (he : e ∈ names) (hd : e.declared.isSome = true)
    (q : Def) (hq : q ∈ e.defs) (hs : (source q.file).eval x = true) : Works x e := by
  obtain ⟨p, hp, hst, hl⟩ := ((C199_present h e he hd).2 q hq).2 hs
  rcases C199_placeholders h e he hd p hp hl with hb | hb | hb
  · exact ⟨p, hp, hst, hl, hb⟩
  · rw [hm] at hb; cases hb.2.2
  · rw [hj] at hb; cases hb.2.1

/-- All files are compiled with all NIPs on (and then all 285 declared functions work). -/
def everything (x : Option Vars) : Bool := match x with
  | some x => x .haveCjson && !x .haveMbedtls && names.all fun e => e.declared.isNone || e.defs.all fun q =>
      (source q.file).eval x
  | none => false

example : everything (configure { defaults with allNips := true } linux) = true ∧
    (names.filter fun e => e.declared.isSome).length = 285 := by decide +kernel

/-- Whether the library has the function, decided. -/
def presentB (x : Vars) (e : Name) : Bool := e.defs.any fun q => !q.isStatic && (dcond q).eval x
/-- Whether the library has the function and it works, decided. -/
def worksB (x : Vars) (e : Name) : Bool := e.defs.any fun q => !q.isStatic && (dcond q).eval x && decide (q.body = .works)

theorem presentB_iff (x : Vars) (e : Name) : presentB x e = true ↔ Present x e := by
  simp [presentB, Present, dcond_eval]

theorem worksB_iff (x : Vars) (e : Name) : worksB x e = true ↔ Works x e := by
  simp [worksB, Works, dcond_eval, and_assoc]

/-- A test on the outcome of a configuration. -/
def after (x : Option Vars) (p : Vars → Bool) : Bool := match x with
  | some x => p x
  | none => false

theorem after_some {x : Option Vars} {p : Vars → Bool} (h : after x p = true) : ∃ y, x = some y ∧ p y = true := by
  cases x with
  | none => cases h
  | some y => exact ⟨y, rfl, h⟩

/-- **C199, functions that are switched off.** docs/FEATURE_FLAGS.md:101 promises that the functions of a feature that is
off answer `NOSTR_ERR_NOT_SUPPORTED`. With the default options and NIP-18 off, `nostr_repost_create`, which the header
declares, is not in the library at all. Without cJSON and relays, `nostr_client_msg_parse` is in the library and answers
`NOSTR_RELAY_ERR_INVALID_JSON`. -/
theorem C199_off_refuted :
    (∃ x, configure (with_ [(.nip18, false)]) linux = some x ∧
      ∃ e ∈ names, e.name = "nostr_repost_create" ∧ e.declared = some "include/nostr.h:1186" ∧ ¬ Present x e) ∧
    (∃ x, configure (with_ [(.relay, false)]) { linux with cjson := false } = some x ∧
      ∃ e ∈ names, e.name = "nostr_client_msg_parse" ∧
        ∃ q ∈ e.defs, q.Live x ∧ q.body = .invalidJson) := by
  refine ⟨?_, ?_⟩
  · obtain ⟨x, hx, hp⟩ := after_some (x := configure (with_ [(.nip18, false)]) linux)
      (p := fun x => !presentB x repostCreate) (by decide +kernel)
    refine ⟨x, hx, repostCreate, mem_repost, by decide +kernel, by decide +kernel, ?_⟩
    rw [← presentB_iff]; simpa using hp
  · obtain ⟨x, hx, hp⟩ := after_some (x := configure (with_ [(.relay, false)]) { linux with cjson := false })
      (p := fun x => clientMsgParse.defs.any fun q => (dcond q).eval x && decide (q.body = .invalidJson)) (by decide +kernel)
    refine ⟨x, hx, clientMsgParse, mem_client, by decide +kernel, ?_⟩
    obtain ⟨q, hq, hl⟩ := List.any_eq_true.1 hp
    simp only [Bool.and_eq_true, decide_eq_true_eq] at hl
    exact ⟨q, hq, (dcond_eval x q).1 hl.1, hl.2⟩

/-! ### What the library says about itself -/

/-- The variable of a NIP the library can be asked about. -/
def nipVar : List (Int × Var) :=
  [ (4, .nip04), (5, .nip05), (10, .nip10), (13, .nip13), (17, .nip17), (25, .nip25), (44, .nip44), (46, .nip46),
    (47, .nip47), (49, .nip49), (51, .nip51), (57, .nip57), (59, .nip59), (65, .nip65) ]

theorem supported_var (x : Vars) : ∀ p ∈ nipVar, Features.supported (toConfig x) p.1 = true → x p.2 = true := by
  simp [nipVar, Features.supported, toConfig, d, G.eval]

theorem nip_source : (nipFiles.all fun p => p.2.all fun fl => nipVar.any fun w => decide (w.1 = p.1) &&
    (G.and (.has w.2) known).gives (source fl)) = true := by decide +kernel

theorem only_nip44 {n : Int} {fs : List File} (hn : (n, fs) ∈ nipFiles) (h : File.nip44 ∈ fs) : fs = [.nip44] := by
  revert h
  simp only [nipFiles, List.mem_cons, Prod.mk.injEq, List.not_mem_nil, or_false] at hn
  rcases hn with ⟨_, rfl⟩ | ⟨_, rfl⟩ | ⟨_, rfl⟩ | ⟨_, rfl⟩ | ⟨_, rfl⟩ | ⟨_, rfl⟩ | ⟨_, rfl⟩ | ⟨_, rfl⟩ | ⟨_, rfl⟩ |
    ⟨_, rfl⟩ | ⟨_, rfl⟩ | ⟨_, rfl⟩ | ⟨_, rfl⟩ | ⟨_, rfl⟩ <;> decide

theorem no_relay {n : Int} {fs : List File} (hn : (n, fs) ∈ nipFiles) (p : File) (h : p ∈ fs) :
    p ∉ [File.relay_protocol, .relay_filter, .relay_message, .relay_nip11] := by
  revert h
  simp only [nipFiles, List.mem_cons, Prod.mk.injEq, List.not_mem_nil, or_false] at hn
  rcases hn with ⟨_, rfl⟩ | ⟨_, rfl⟩ | ⟨_, rfl⟩ | ⟨_, rfl⟩ | ⟨_, rfl⟩ | ⟨_, rfl⟩ | ⟨_, rfl⟩ | ⟨_, rfl⟩ | ⟨_, rfl⟩ |
    ⟨_, rfl⟩ | ⟨_, rfl⟩ | ⟨_, rfl⟩ | ⟨_, rfl⟩ | ⟨_, rfl⟩ <;> cases p <;> decide

/-- **C199, what is reported is there.** In an accepted configuration, if `nostr_feature_nip_supported` says yes about a
NIP, then every declared function that is defined in the files of that NIP is in the library and works — for NIP-04 and
NIP-44 provided the build is not one with mbedTLS (`C199_reported_refuted`). -/
theorem C199_reported_partial {o : Options} {f : Found} {x : Vars} (h : configure o f = some x) (n : Int)
    (fs : List File) (hn : (n, fs) ∈ nipFiles) (hsup : Features.supported (toConfig x) n = true)
    (hm : x .haveMbedtls = false ∨ fs ≠ [.nip44]) (e : Name) (he : e ∈ names) (hd : e.declared.isSome = true)
    (hfs : ∀ q ∈ e.defs, q.file ∈ fs) : Works x e := by
  have hne := (C199_present h e he hd).1
  obtain ⟨q, hq⟩ := List.exists_mem_of_ne_nil _ hne
  have h1 := List.all_eq_true.1 (List.all_eq_true.1 nip_source (n, fs) hn) q.file (hfs q hq)
  obtain ⟨w, hw, h2⟩ := List.any_eq_true.1 h1
  simp only [Bool.and_eq_true, decide_eq_true_eq] at h2
  have hv := supported_var x w hw (by rw [h2.1]; exact hsup)
  have hs := G.gives_eval h2.2 x (by simp [G.eval, hv, known_eval h])
  obtain ⟨p, hp, hst, hl⟩ := ((C199_present h e he hd).2 q hq).2 hs
  rcases C199_placeholders h e he hd p hp hl with hb | hb | hb
  · exact ⟨p, hp, hst, hl, hb⟩
  · rcases hm with hm | hm
    · rw [hm] at hb; cases hb.2.2
    · exact absurd (only_nip44 hn (hb.2.1 ▸ hfs p hp)) hm
  · exact absurd hb.2.2 (no_relay hn p.file (hfs p hp))

example : after (configure (with_ [(.nip44, true)]) linux) (fun x => Features.supported (toConfig x) 44 &&
    worksB x nip44Encrypt && decide (nip44Encrypt.name = "nostr_nip44_encrypt")) = true := by decide +kernel

/-- **C199, reports that are wrong.** With NIP-04 on and mbedTLS chosen, NIP-04 is reported as supported and its
encryption is a placeholder. With NIP-04 on and NIP-44 off, NIP-44 is reported as not supported and its encryption is in
the library and works. With the encodings off, `encoding` is still listed as enabled, and `nostr_key_to_bech32` is not in
the library. -/
theorem C199_reported_refuted :
    (∃ x, configure { with_ [(.nip04, true)] with mbedtls := true } linux = some x ∧
      Features.supported (toConfig x) 4 = true ∧ ∃ e ∈ names, e.name = "nostr_nip04_encrypt" ∧ ¬ Works x e) ∧
    (∃ x, configure (with_ [(.nip04, true)]) linux = some x ∧
      Features.supported (toConfig x) 44 = false ∧ ∃ e ∈ names, e.name = "nostr_nip44_encrypt" ∧ Works x e) ∧
    (∃ x, configure (with_ [(.encoding, false)]) linux = some x ∧
      c!",encoding" <:+: Features.listEnabled (toConfig x) ∧
      ∃ e ∈ names, e.name = "nostr_key_to_bech32" ∧ ¬ Present x e) := by
  refine ⟨?_, ?_, ?_⟩
  · obtain ⟨x, hx, hp⟩ := after_some (x := configure { with_ [(.nip04, true)] with mbedtls := true } linux)
      (p := fun x => Features.supported (toConfig x) 4 && !worksB x nip04Encrypt) (by decide +kernel)
    simp only [Bool.and_eq_true, Bool.not_eq_true'] at hp
    refine ⟨x, hx, hp.1, nip04Encrypt, mem_nip04, by decide +kernel, ?_⟩
    rw [← worksB_iff, hp.2]; exact Bool.noConfusion
  · obtain ⟨x, hx, hp⟩ := after_some (x := configure (with_ [(.nip04, true)]) linux)
      (p := fun x => !Features.supported (toConfig x) 44 && worksB x nip44Encrypt) (by decide +kernel)
    simp only [Bool.and_eq_true, Bool.not_eq_true'] at hp
    exact ⟨x, hx, hp.1, nip44Encrypt, mem_nip44, by decide +kernel, (worksB_iff x _).1 hp.2⟩
  · obtain ⟨x, hx, hp⟩ := after_some (x := configure (with_ [(.encoding, false)]) linux)
      (p := fun x => decide (Features.listEnabled (toConfig x) = c!"std,events,keys" ++ c!",encoding" ++
        (Features.listEnabled (toConfig x)).drop 24) && !presentB x keyToBech32) (by decide +kernel)
    simp only [Bool.and_eq_true, Bool.not_eq_true', decide_eq_true_eq] at hp
    refine ⟨x, hx, ⟨_, _, hp.1.symm⟩, keyToBech32, mem_bech32, by decide +kernel, ?_⟩
    rw [← presentB_iff, hp.2]; exact Bool.noConfusion

/-! ### The build for the ESP32 -/

/-- The test behind `C199_esp`. -/
def espResolved : Bool := names.all fun e => e.refs.all fun r => !(rcond r).eval espVars ||
  e.defs.any fun q => (!q.isStatic || decide (q.file = r.file)) && (dcond q).eval espVars

/-- **C199, the build for the ESP32.** Every function a compiled file uses is defined. -/
theorem C199_esp : Complete espVars := by
  have h : espResolved = true := by decide +kernel
  intro e he r hr hl
  have h1 := List.all_eq_true.1 (List.all_eq_true.1 h e he) r hr
  rw [(rcond_eval espVars r).2 hl] at h1
  obtain ⟨q, hq, h2⟩ := List.any_eq_true.1 h1
  rw [Bool.and_eq_true] at h2
  refine ⟨q, hq, ?_, (dcond_eval _ q).1 h2.2⟩
  intro hs
  simpa [hs] using h2.1

/-- The compiled part of the ESP32 build is not empty. -/
example : (names.filter fun e => e.declared.isSome && worksB espVars e).length = 168 := by decide +kernel

/-- **C199, reports on the ESP32.** NIP-44 is reported as not supported and works; the list of features ends in
`threading`, although the build asks for no threads. -/
theorem C199_esp_refuted :
    Features.supported (toConfig espVars) 44 = false ∧
    (∃ e ∈ names, e.name = "nostr_nip44_encrypt" ∧ Works espVars e) ∧
    espVars .threading = false ∧
    Features.listEnabled (toConfig espVars) =
      c!"std,events,keys,encoding,nip13,relay-protocol,json-enhanced,threading" :=
  ⟨by decide +kernel, ⟨nip44Encrypt, mem_nip44, by decide +kernel, (worksB_iff _ _).1 (by decide +kernel)⟩, rfl,
    by decide +kernel⟩

end Nostr.Build.Props
