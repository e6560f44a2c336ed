import Verif.Shared.Props

/-! # Theorems: what the library keeps changes only through the calls made for that (C212) -/

namespace Nostr.Shared

/-! ## Specification -/

/-- The calls with which an application initialises the library and prepares what it keeps for itself, and those that do so on their own when
it has not been done (all that sign, verify, encrypt, decrypt, or make keys). -/
def initialising : List String :=
  ["nostr_delegation_create", "nostr_delegation_verify", "nostr_event_sign", "nostr_event_validate_full", "nostr_event_verify",
   "nostr_event_verify_delegation", "nostr_init", "nostr_init_with_config", "nostr_key_ecdh", "nostr_key_generate",
   "nostr_keypair_from_private_hex", "nostr_keypair_from_private_key", "nostr_keypair_generate", "nostr_keypair_validate",
   "nostr_list_from_event", "nostr_list_to_event", "nostr_nip04_decrypt", "nostr_nip04_encrypt", "nostr_nip17_create_gift_wrap",
   "nostr_nip17_create_seal", "nostr_nip17_send_dm", "nostr_nip17_unwrap_dm", "nostr_nip44_decrypt", "nostr_nip44_encrypt",
   "nostr_nip46_create_response", "nostr_nip46_parse_request", "nostr_nip47_create_request_event", "nostr_nip47_parse_notification_event",
   "nostr_nip47_parse_response_event", "nostr_nip59_create_gift_wrap", "nostr_nip59_create_seal", "nostr_nip59_unwrap_event",
   "nostr_nip59_wrap_event", "nostr_zap_verify"]

/-- The calls through which each of the library's variables may change: the configuration, its callback, the text of the features, the contexts of
the cryptography, the random generator, the table of wallet sessions, the limit of new sessions; of a session its existence, id and
connection, its permissions, their number, and the times of its making, its last use and its end. -/
def writers : Var → List String
  | .config => ["nostr_init_with_config", "nostr_config_update"]
  | .configInit => ["nostr_init_with_config"]
  | .callback | .callbackData => ["nostr_config_set_callback"]
  | .featureText | .featureInit => ["nostr_feature_list_enabled"]
  | .contextInit | .ncContext | .secpContext => "nostr_cleanup" :: initialising
  | .random | .randomInit => "nostr_random_bytes" :: "nostr_mnemonic_generate" :: initialising
  | .table | .tableSize | .tableInit => ["nostr_nip47_session_init", "nostr_nip47_session_create"]
  | .rateWindow | .rateCount | .sId | .sCreated => ["nostr_nip47_session_create"]
  | .sActive | .sConnection => ["nostr_nip47_session_create", "nostr_nip47_session_destroy"]
  | .sPermissions => ["nostr_nip47_session_create", "nostr_nip47_session_destroy", "nostr_nip47_session_add_permission",
      "nostr_nip47_session_check_permission"]
  | .sCount => ["nostr_nip47_session_create", "nostr_nip47_session_destroy", "nostr_nip47_session_add_permission"]
  | .sUsed => ["nostr_nip47_session_create", "nostr_nip47_session_check_permission", "nostr_nip47_session_get_connection"]
  | .sExpires => ["nostr_nip47_session_create", "nostr_nip47_session_extend"]

/-- The library when nobody, not even a callback, calls the functions with the given names. -/
def barred (names : List String) (fns : List Fn) : List Fn :=
  fns.map fun d => { d with entry := d.entry && !names.contains d.name }

/-- The library when nobody calls anything but the function with this name. -/
def solely (name : String) (fns : List Fn) : List Fn :=
  fns.map fun d => { d with entry := d.entry && d.name == name }

/-! ## Programs that leave a variable alone -/

/-- `p` contains none of the given assignments and calls no function of `S`. -/
def Prog.spares (bad : Prog → Bool) (S : List Nat) : Prog → Bool
  | .write v => !bad (.write v)
  | .set v b => !bad (.set v b)
  | .test _ a b => a.spares bad S && b.spares bad S
  | .seq a b => a.spares bad S && b.spares bad S
  | .alt a b => a.spares bad S && b.spares bad S
  | .many a => a.spares bad S
  | .call f => !S.contains f
  | _ => true

/-- All functions outside `S` contain no such assignment and call none of `S`; and a thread cannot begin with a function of `S`. -/
def Spares (bad : Prog → Bool) (S : List Nat) (fns : List Fn) : Prop :=
  ∀ f, S.contains f = false → (bodyOf fns f).spares bad S = true

theorem next_spares {bad : Prog → Bool} {S : List Nat} {fns : List Fn} (hb : Spares bad S fns)
    (he : ∀ f, entryOf fns f = true → S.contains f = false) {c i : Nat} {w u : World}
    (hw : ∀ j, ∀ p ∈ (w.threads j).todo, p.spares bad S = true) (h : next fns c i w = some u) :
    ∀ j, ∀ p ∈ (u.threads j).todo, p.spares bad S = true := by
  have hi := hw i
  have goto : ∀ (w' : World) (k : List Prog), (∀ j, ∀ p ∈ (w'.threads j).todo, p.spares bad S = true) → (∀ p ∈ k, p.spares bad S = true) →
      ∀ j, ∀ p ∈ ((w'.goto i k).threads j).todo, p.spares bad S = true := by
    intro w' k h1 h2 j p hp
    simp only [World.goto] at hp
    split at hp
    · exact h2 p hp
    · exact h1 j p hp
  unfold next at h
  split at h <;> rename_i e <;> try (rw [e] at hi)
  · split at h
    · rename_i hc
      cases h
      exact goto w _ hw fun p hp => by
        rw [List.mem_singleton] at hp
        rw [hp]; exact hb _ (he _ hc)
    · exact nomatch h
  · cases h; exact goto w _ hw fun p hp => hi p (List.mem_cons_of_mem _ hp)
  · split at h
    · cases h; exact goto _ _ hw fun p hp => hi p (List.mem_cons_of_mem _ hp)
    · exact nomatch h
  · split at h
    · cases h; exact goto _ _ hw fun p hp => hi p (List.mem_cons_of_mem _ hp)
    · exact nomatch h
  · cases h; exact goto w _ hw fun p hp => hi p (List.mem_cons_of_mem _ hp)
  · cases h; exact goto w _ hw fun p hp => hi p (List.mem_cons_of_mem _ hp)
  · cases h; exact goto _ _ hw fun p hp => hi p (List.mem_cons_of_mem _ hp)
  · cases h
    have h1 := hi _ List.mem_cons_self
    simp only [Prog.spares, Bool.and_eq_true] at h1
    refine goto w _ hw fun p hp => ?_
    rcases List.mem_cons.1 hp with rfl | hp
    · split
      · exact h1.1
      · exact h1.2
    · exact hi p (List.mem_cons_of_mem _ hp)
  · cases h
    have h1 := hi _ List.mem_cons_self
    simp only [Prog.spares, Bool.and_eq_true] at h1
    refine goto w _ hw fun p hp => ?_
    rcases List.mem_cons.1 hp with rfl | hp
    · exact h1.1
    · rcases List.mem_cons.1 hp with rfl | hp
      · exact h1.2
      · exact hi p (List.mem_cons_of_mem _ hp)
  · cases h
    have h1 := hi _ List.mem_cons_self
    simp only [Prog.spares, Bool.and_eq_true] at h1
    refine goto w _ hw fun p hp => ?_
    rcases List.mem_cons.1 hp with rfl | hp
    · split
      · exact h1.1
      · exact h1.2
    · exact hi p (List.mem_cons_of_mem _ hp)
  · cases h
    have h1 := hi _ List.mem_cons_self
    refine goto w _ hw fun p hp => ?_
    split at hp
    · exact hi p (List.mem_cons_of_mem _ hp)
    · rcases List.mem_cons.1 hp with rfl | hp
      · simpa only [Prog.spares] using h1
      · exact hi p hp
  · cases h
    have h1 := goto w _ hw fun p hp => hi p (List.mem_cons_of_mem _ hp)
    intro j p hp
    simp only [World.choose] at hp
    split at hp
    · exact h1 i p hp
    · exact h1 j p hp
  · cases h
    have h1 := hi _ List.mem_cons_self
    simp only [Prog.spares, Bool.not_eq_true'] at h1
    refine goto w _ hw fun p hp => ?_
    rcases List.mem_cons.1 hp with rfl | hp
    · exact hb _ h1
    · exact hi p (List.mem_cons_of_mem _ hp)
  · split at h
    · cases h; exact goto w _ hw fun p hp => hi p (List.mem_cons_of_mem _ hp)
    · split at h
      · rename_i hc
        cases h
        refine goto w _ hw fun p hp => ?_
        rcases List.mem_cons.1 hp with rfl | hp
        · exact hb _ (he _ hc)
        · exact hi p hp
      · exact nomatch h

theorem reach_spares {bad : Prog → Bool} {S : List Nat} {fns : List Fn} (hb : Spares bad S fns)
    (he : ∀ f, entryOf fns f = true → S.contains f = false) {flags : Var → Bool} {w : World} (r : Reach fns (.outside flags) w) :
    ∀ j, ∀ p ∈ (w.threads j).todo, p.spares bad S = true := by
  induction r with
  | refl => intro j p hp; simp [World.outside] at hp
  | step c i _ e ih => exact next_spares hb he ih e

/-- Only `set` changes a flag. -/
theorem next_flag {fns : List Fn} {c i : Nat} {w u : World} (h : next fns c i w = some u) (v : Var) :
    u.flag v = w.flag v ∨ ∃ b k, (w.threads i).todo = .set v b :: k ∧ u.flag v = b := by
  unfold next at h
  split at h <;> rename_i e <;> first
    | (cases h; exact .inl rfl)
    | (split at h <;> first | (cases h; exact .inl rfl) | (simp at h; done) |
        (split at h <;> first | (cases h; exact .inl rfl) | (simp at h; done)))
    | skip
  · rename_i v' b k
    cases h
    by_cases hv : v = v'
    · subst hv
      exact .inr ⟨b, k, e, by simp [World.goto, World.assign]⟩
    · exact .inl (by simp [World.goto, World.assign, hv])

/-! ## The functions of the library -/

/-- The numbers of the functions that may write a variable: those of `writers`, and one they share. -/
def touching : Var → List Nat
  | .config => [92, 184]
  | .configInit => [184]
  | .callback | .callbackData => [91]
  | .featureText | .featureInit => [150]
  | .contextInit | .ncContext | .secpContext => [81, 96, 98, 142, 144, 145, 146, 183, 184, 185, 188, 194, 195, 196, 200, 217, 224, 238, 239, 250,
      252, 253, 254, 255, 256, 257, 258, 269, 275, 277, 285, 287, 288, 289, 363]
  | .random | .randomInit => [96, 98, 142, 144, 145, 146, 183, 184, 185, 188, 194, 195, 196, 200, 217, 224, 225, 238, 239, 250,
      252, 253, 254, 255, 256, 257, 258, 269, 275, 277, 285, 287, 288, 289, 301, 363]
  | .table | .tableSize | .tableInit => [280, 284]
  | .rateWindow | .rateCount | .sId | .sCreated => [280]
  | .sActive | .sConnection => [20, 280, 281]
  | .sPermissions => [20, 278, 279, 280, 281]
  | .sCount => [20, 278, 280, 281]
  | .sUsed => [279, 280, 283]
  | .sExpires => [280, 282]

/-- Assignments of a variable. -/
def assigns (v : Var) : Prog → Bool
  | .write u => u == v
  | .set u _ => u == v
  | _ => false

/-- The check: the functions outside `S` are as they should be, and those of `S` cannot be called when `names` are not. -/
def sparesCheck (bad : Prog → Bool) (S : List Nat) (names : List String) (fns : List Fn) : Bool :=
  (List.range fns.length).all (fun f => S.contains f || (bodyOf fns f).spares bad S) &&
    S.all (fun f => match fns[f]? with | some d => !d.entry || names.contains d.name | none => true)

theorem barred_body (names : List String) (fns : List Fn) (f : Nat) : bodyOf (barred names fns) f = bodyOf fns f := by
  unfold bodyOf barred
  rw [List.getElem?_map]
  cases fns[f]? <;> rfl

theorem sparesCheck_body {bad : Prog → Bool} {S : List Nat} {names : List String} {fns : List Fn} (h : sparesCheck bad S names fns = true)
    (ns : List String) : Spares bad S (barred ns fns) := by
  intro f hf
  rw [barred_body]
  by_cases hl : f < fns.length
  · have := List.all_eq_true.1 ((Bool.and_eq_true _ _).mp h).1 f (List.mem_range.2 hl)
    rw [hf] at this
    simpa using this
  · rw [bodyOf_ge (Nat.le_of_not_lt hl)]; rfl

theorem sparesCheck_entry {bad : Prog → Bool} {S : List Nat} {names ns : List String} {fns : List Fn} (h : sparesCheck bad S names fns = true)
    (hn : ∀ x ∈ names, x ∈ ns) (f : Nat) (e : entryOf (barred ns fns) f = true) : S.contains f = false := by
  cases hc : S.contains f with
  | false => rfl
  | true =>
      have := List.all_eq_true.1 ((Bool.and_eq_true _ _).mp h).2 f (by simpa using hc)
      unfold entryOf barred at e
      rw [List.getElem?_map] at e
      cases hd : fns[f]? with
      | none => rw [hd] at e; exact nomatch e
      | some d =>
          rw [hd] at e this
          simp only [Option.map_some, Bool.and_eq_true, Bool.not_eq_true'] at e
          simp only [Bool.or_eq_true, Bool.not_eq_true'] at this
          rcases this with h1 | h1
          · rw [h1] at e; exact nomatch e.1
          · have h2 := hn d.name (by simpa using h1)
            rw [List.contains_iff_mem.2 h2] at e
            exact nomatch e.2

/-- All variables. -/
def variables : List Var :=
  [.config, .configInit, .callback, .callbackData, .featureText, .featureInit, .contextInit, .ncContext, .secpContext, .random, .randomInit,
   .table, .tableSize, .tableInit, .rateWindow, .rateCount, .sActive, .sId, .sConnection, .sPermissions, .sCount, .sCreated, .sUsed, .sExpires]

theorem mem_variables (v : Var) : v ∈ variables := by cases v <;> decide

theorem checked (v : Var) : sparesCheck (assigns v) (touching v) (writers v) (library .user) = true :=
  List.all_eq_true.1 (show variables.all (fun v => sparesCheck (assigns v) (touching v) (writers v) (library .user)) = true by decide +kernel)
    v (mem_variables v)

/-- The flags that are ever taken back: that the contexts are ready. -/
def resets (v : Var) : Prog → Bool
  | .set u b => u == v && !b
  | _ => false

theorem checkedReset (v : Var) : sparesCheck (resets v) (if v = .contextInit then [Id.cleanup] else [])
    (if v = .contextInit then ["nostr_cleanup"] else []) (library .user) = true :=
  List.all_eq_true.1 (show variables.all (fun v => sparesCheck (resets v) (if v = .contextInit then [Id.cleanup] else [])
    (if v = .contextInit then ["nostr_cleanup"] else []) (library .user)) = true by decide +kernel) v (mem_variables v)

theorem barred_nil (fns : List Fn) : barred [] fns = fns := by
  unfold barred
  conv => rhs; rw [← List.map_id fns]
  exact List.map_congr_left fun d _ => by simp

namespace Props

/-- C212: while nobody calls one of its writers (nor anything else in `ns`), no thread ever writes the variable, and it is what it was. Callbacks
of relays and of the configuration may call everything else. -/
theorem C212_only (v : Var) {ns : List String} (hn : ∀ x ∈ writers v, x ∈ ns) {flags : Var → Bool} {w : World}
    (r : Reach (barred ns (library .user)) (.outside flags) w) :
    (∀ i, (w.threads i).access ≠ some (v, true)) ∧ w.flag v = flags v := by
  have hb := sparesCheck_body (checked v) ns
  have he := sparesCheck_entry (checked v) hn
  refine ⟨fun i ha => ?_, ?_⟩
  · have hi := reach_spares hb he r i
    unfold Thread.access at ha
    split at ha <;> rename_i e <;> first | (simp at ha; done) | (rw [e] at hi; have h1 := hi _ List.mem_cons_self; cases ha; simp [Prog.spares, assigns] at h1)
  · induction r with
    | refl => rfl
    | @step u x c i r e ih =>
        rcases next_flag e v with h | ⟨b, k, h, _⟩
        · rw [h, ih]
        · have hi := reach_spares hb he r i
          rw [h] at hi
          have h1 := hi _ List.mem_cons_self
          simp [Prog.spares, assigns] at h1

/-- ... so the functions that are no writers of anything change nothing at all. -/
theorem C212_nothing {flags : Var → Bool} {w : World} (r : Reach (barred (variables.flatMap writers) (library .user)) (.outside flags) w)
    (i : Nat) (v : Var) : (w.threads i).access ≠ some (v, true) ∧ w.flag = flags :=
  have hn : ∀ v, ∀ x ∈ writers v, x ∈ variables.flatMap writers := fun v _ hx => List.mem_flatMap.2 ⟨v, mem_variables v, hx⟩
  ⟨(C212_only v (hn v) r).1 i, funext fun v => (C212_only v (hn v) r).2⟩

/-- Once the library has been initialised it stays so until `nostr_cleanup` is called. -/
theorem C212_ready {flags : Var → Bool} {u w : World} (r : Reach (barred ["nostr_cleanup"] (library .user)) (.outside flags) u)
    (h : u.flag .contextInit = true) (r' : Reach (barred ["nostr_cleanup"] (library .user)) u w) : w.flag .contextInit = true := by
  have hc := checkedReset .contextInit
  rw [if_pos rfl, if_pos rfl] at hc
  have hb := sparesCheck_body hc ["nostr_cleanup"]
  have he := sparesCheck_entry hc (ns := ["nostr_cleanup"]) (fun _ h => h)
  induction r' with
  | refl => exact h
  | @step x y c i r1 e ih =>
      rcases next_flag e .contextInit with h1 | ⟨b, k, h1, h2⟩
      · rw [h1, ih]
      · have hi := reach_spares hb he (Reach.trans r r1) i
        rw [h1] at hi
        have h3 := hi _ List.mem_cons_self
        cases b with
        | true => exact h2
        | false => simp [Prog.spares, resets] at h3

/-- All else that has been set up once (the configuration, the text of the features, the generator, the table of sessions) stays set up for ever. -/
theorem C212_once {flags : Var → Bool} {u w : World} (r : Reach (library .user) (.outside flags) u) {v : Var} (hv : v ≠ .contextInit)
    (h : u.flag v = true) (r' : Reach (library .user) u w) : w.flag v = true := by
  have hc := checkedReset v
  rw [if_neg hv, if_neg hv] at hc
  have hb := sparesCheck_body hc []
  have he := sparesCheck_entry hc (ns := []) (fun _ h => h)
  rw [barred_nil] at hb he
  induction r' with
  | refl => exact h
  | @step x y c i r1 e ih =>
      rcases next_flag e v with h1 | ⟨b, k, h1, h2⟩
      · rw [h1, ih]
      · have hi := reach_spares hb he (Reach.trans r r1) i
        rw [h1] at hi
        have h3 := hi _ List.mem_cons_self
        cases b with
        | true => exact h2
        | false => simp [Prog.spares, resets] at h3

end Props

end Nostr.Shared
