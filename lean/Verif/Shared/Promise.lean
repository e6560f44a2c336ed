import Verif.Shared.Writes

/-! # Theorems: the promises of docs/THREAD_SAFETY.md (C213) -/

namespace Nostr.Shared

/-! ## Specification -/

/-- docs/THREAD_SAFETY.md:11-18, "Always Thread-Safe": keys, signing and verifying, NIP-04 and NIP-44, reading and writing events, Bech32 (the two names
given there do not exist; those of the headers are meant), and "all NIP-13, NIP-17, NIP-59 functions". -/
def reentrant : List String :=
  ["nostr_key_generate", "nostr_key_from_hex", "nostr_key_to_hex", "nostr_event_sign", "nostr_event_verify",
   "nostr_nip04_encrypt", "nostr_nip04_decrypt", "nostr_nip44_encrypt", "nostr_nip44_decrypt", "nostr_event_from_json", "nostr_event_to_json",
   "nostr_key_from_bech32", "nostr_key_to_bech32", "nostr_privkey_from_bech32", "nostr_privkey_to_bech32", "nostr_event_id_from_bech32",
   "nostr_event_id_to_bech32", "nostr_nip13_add_nonce_tag", "nostr_nip13_calculate_difficulty", "nostr_nip13_mine_event",
   "nostr_nip13_mine_event_threaded", "nostr_nip13_verify_pow", "nostr_nip17_create_gift_wrap", "nostr_nip17_create_rumor",
   "nostr_nip17_create_seal", "nostr_nip17_send_dm", "nostr_nip17_unwrap_dm", "nostr_nip59_create_gift_wrap", "nostr_nip59_create_rumor",
   "nostr_nip59_create_seal", "nostr_nip59_unwrap_event", "nostr_nip59_wrap_event"]

/-- docs/THREAD_SAFETY.md:21-25, "Internally Synchronized": initialisation, configuration, "all session management functions". -/
def synchronized : List String :=
  ["nostr_init", "nostr_init_with_config", "nostr_cleanup", "nostr_config_get_current", "nostr_config_update", "nostr_config_set_callback",
   "nostr_nip47_session_init", "nostr_nip47_session_create", "nostr_nip47_session_add_permission", "nostr_nip47_session_check_permission",
   "nostr_nip47_session_get_connection", "nostr_nip47_session_extend", "nostr_nip47_session_destroy"]

/-- The library when threads call only functions with the given names. -/
def calling (names : List String) (fns : List Fn) : List Fn :=
  fns.map fun d => { d with entry := d.entry && names.contains d.name }

/-! ## Disciplines -/

theorem calling_body (names : List String) (fns : List Fn) (f : Nat) : bodyOf (calling names fns) f = bodyOf fns f := by
  unfold bodyOf calling
  rw [List.getElem?_map]
  cases fns[f]? <;> rfl

theorem without_body (fs : List Nat) (fns : List Fn) (f : Nat) : bodyOf (without fs fns) f = bodyOf fns f := by
  unfold bodyOf without
  rw [List.getElem?_mapIdx]
  cases fns[f]? with
  | none => rfl
  | some d => simp only [Option.map_some]; split <;> rfl

/-- A discipline that is kept without some functions is kept when only others are called. -/
theorem Disc.Keeps.calling {D : Disc} {fs : List Nat} {fns : List Fn} {ns : List String} (K : D.Keeps (without fs fns))
    (h : ∀ f ∈ fs, ∀ d, fns[f]? = some d → d.name ∉ ns) : D.Keeps (Shared.calling ns fns) := by
  refine ⟨fun f H e => ?_, fun f e => K.entry f ?_, K.fixed, K.member⟩
  · rw [calling_body, ← without_body fs]; exact K.body f H e
  · unfold entryOf Shared.calling at e
    rw [List.getElem?_map] at e
    cases hd : fns[f]? with
    | none => rw [hd] at e; exact nomatch e
    | some d =>
        rw [hd] at e
        simp only [Option.map_some, Bool.and_eq_true, List.contains_iff_mem] at e
        unfold entryOf without
        rw [List.getElem?_mapIdx, hd]
        simp only [Option.map_some]
        split
        · rename_i hf
          exact absurd e.2 (h f (List.contains_iff_mem.1 hf) d hd)
        · exact e.1

/-- The rules when sessions are neither given up nor prolonged. -/
def ruleServed : Var → Rule
  | .sActive => .under .table
  | .sExpires => .both
  | v => rulePrepared v

def discServed : Disc := ⟨ruleServed, knownPrepared, may [Id.findSession, Id.cleanupExpired, Id.cleanup, Id.sessionDestroy, Id.sessionExtend]⟩

theorem keepsServed : discServed.Keeps (without [Id.cleanup, Id.sessionDestroy, Id.sessionExtend] (library .skip)) :=
  keeps_spec rfl (fun v _ h => by cases v <;> first | rfl | exact nomatch h)
    (fun v h => by cases v <;> first | rfl | (rcases h with h | h <;> exact nomatch h)) (by decide +kernel)

/-- The rules when the library is initialised, and sessions and the text of the features are left alone. -/
def ruleReady : Var → Rule
  | .featureText | .featureInit | .contextInit | .ncContext | .secpContext | .tableInit => .frozen
  | .sActive => .under .table
  | .sExpires => .both
  | v => ruleAny v

def knownReady : Var → Option Bool
  | .contextInit => some true
  | _ => none

def notReady : List Nat :=
  [Id.cleanup, Id.featureList, Id.sessionInit, Id.sessionCreate, Id.sessionDestroy, Id.sessionExtend]

def discReady : Disc := ⟨ruleReady, knownReady, may (Id.findSession :: Id.cleanupExpired :: notReady)⟩

theorem keepsReady : discReady.Keeps (without notReady (library .skip)) :=
  keeps_spec rfl (fun v _ h => by cases v <;> first | rfl | exact nomatch h)
    (fun v h => by cases v <;> first | rfl | (rcases h with h | h <;> exact nomatch h)) (by decide +kernel)

namespace Props

/-- C213, with everything set up beforehand: threads that call any functions but the three which give up or prolong a session or take the
library down never collide at a variable of the library. -/
theorem C213_partial {ns : List String} (h1 : "nostr_cleanup" ∉ ns) (h2 : "nostr_nip47_session_destroy" ∉ ns)
    (h3 : "nostr_nip47_session_extend" ∉ ns) {flags : Var → Bool} (hc : flags .contextInit = true) (ht : flags .tableInit = true)
    (hf : flags .featureInit = true) {w : World} (r : Reach (calling ns (library .skip)) (.outside flags) w) (v : Var) : ¬ w.Race v := by
  intro hr
  have K : discServed.Keeps (calling ns (library .skip)) := keepsServed.calling fun f hm d hd => by
    simp only [List.mem_cons, List.not_mem_nil, or_false] at hm
    rcases hm with rfl | rfl | rfl
    · cases hd; exact h1
    · cases hd; exact h2
    · cases hd; exact h3
  have i0 : Inv discServed (.outside flags) := Inv.outside fun v b e => by
    cases v <;> first | (cases Option.some.inj e; assumption) | exact nomatch e
  have := (i0.reach K r).race K hr
  revert this
  cases v <;> (intro e; exact nomatch e)

/-- C213, with `nostr_init` done beforehand and nothing else: threads that call none of these six never collide. -/
theorem C213_ready_partial {ns : List String} (hn : ∀ x ∈ ["nostr_cleanup", "nostr_feature_list_enabled", "nostr_nip47_session_init",
      "nostr_nip47_session_create", "nostr_nip47_session_destroy", "nostr_nip47_session_extend"], x ∉ ns)
    {flags : Var → Bool} (hc : flags .contextInit = true) {w : World} (r : Reach (calling ns (library .skip)) (.outside flags) w) (v : Var) :
    ¬ w.Race v := by
  intro hr
  have K : discReady.Keeps (calling ns (library .skip)) := keepsReady.calling fun f hm d hd => by
    simp only [notReady, List.mem_cons, List.not_mem_nil, or_false] at hm
    rcases hm with rfl | rfl | rfl | rfl | rfl | rfl <;> (cases hd; exact hn _ (by simp))
  have i0 : Inv discReady (.outside flags) := Inv.outside fun v b e => by
    cases v <;> first | (cases Option.some.inj e; assumption) | exact nomatch e
  have := (i0.reach K r).race K hr
  revert this
  cases v <;> (intro e; exact nomatch e)

/-- All functions the document calls always thread-safe are among those of both theorems, as are the others but for the calls named there. -/
theorem C213_documented : (∀ x ∈ reentrant, x ∉ ["nostr_cleanup", "nostr_feature_list_enabled", "nostr_nip47_session_init",
      "nostr_nip47_session_create", "nostr_nip47_session_destroy", "nostr_nip47_session_extend"]) ∧
    (∀ x ∈ reentrant ++ synchronized, (library .skip).any (fun d => d.entry && d.name == x) = true) := by
  constructor <;> decide +kernel

/-- C213 is false for functions the document promises: `nostr_init` beside `nostr_key_generate`, before the library is initialised; with all
set up, `nostr_cleanup` beside `nostr_key_generate`, `nostr_nip47_session_destroy` beside `nostr_nip47_session_get_connection`, and
`nostr_nip47_session_extend` beside `nostr_nip47_session_create`. -/
theorem C213_refuted :
    (∃ w, Reach (calling ["nostr_init", "nostr_key_generate"] (library .skip)) (.outside fun _ => false) w ∧ w.Race .contextInit) ∧
    (∃ w, Reach (calling ["nostr_cleanup", "nostr_key_generate"] (library .skip)) (.outside prepared) w ∧ w.Race .ncContext) ∧
    (∃ w, Reach (calling ["nostr_nip47_session_destroy", "nostr_nip47_session_get_connection"] (library .skip)) (.outside prepared) w ∧
      w.Race .sActive) ∧
    (∃ w, Reach (calling ["nostr_nip47_session_extend", "nostr_nip47_session_create"] (library .skip)) (.outside prepared) w ∧
      w.Race .sExpires) := by
  refine ⟨?_, ?_, ?_, ?_⟩
  · exact race_of (ps := [⟨0, some Id.init, [1], 7⟩, ⟨0, none, [0, 0, 1], 15⟩, ⟨1, some Id.keyGenerate, [1], 2⟩]) (by decide +kernel)
  · exact race_of (ps := [⟨1, some Id.keyGenerate, [1, 1, 0, 1, 0], 11⟩, ⟨0, some Id.cleanup, [1, 1], 8⟩]) (by decide +kernel)
  · exact race_of (ps := [⟨0, some Id.sessionDestroy, [1, 0, 1], 16⟩, ⟨1, some Id.sessionGet, [1, 1], 13⟩]) (by decide +kernel)
  · exact race_of (ps := [⟨0, some Id.sessionExtend, [1, 0, 1], 18⟩, ⟨1, some Id.sessionCreate, [1, 0, 1, 0, 1, 1, 1], 36⟩])
      (by decide +kernel)

/-- The hypotheses of `C213_partial` can be met with threads at work: one is about to write the end of a session it makes while another has looked for
that session and waits for its lock. -/
example : ∃ w, Reach (calling ["nostr_nip47_session_create", "nostr_nip47_session_get_connection"] (library .skip)) (.outside prepared) w ∧
    (w.threads 0).access = some (.sExpires, true) ∧ (w.threads 1).todo ≠ [] := by
  have h : (match play (calling ["nostr_nip47_session_create", "nostr_nip47_session_get_connection"] (library .skip))
      [⟨1, some Id.sessionGet, [1], 2⟩, ⟨0, some Id.sessionCreate, [1, 0, 1, 0, 1, 0, 0, 1, 1], 54⟩] (.outside prepared) with
    | some w => (w.threads 0).access == some (.sExpires, true) && !(w.threads 1).todo.isEmpty
    | none => false) = true := by decide +kernel
  split at h
  · rename_i w e
    simp only [Bool.and_eq_true, beq_iff_eq, Bool.not_eq_true', List.isEmpty_eq_false_iff] at h
    exact ⟨w, play_reach e, h.1, h.2⟩
  · exact nomatch h

end Props

end Nostr.Shared
