import Verif.Null.Check
import Verif.Build.Tables

/-! # C209: NULL is refused, not followed -/

namespace Nostr.Null.Props
open Nostr Nostr.Null Nostr.Null.Spec

/-- The arguments that the caller has to give, by number. -/
def given (f : Fn) : List Nat :=
  (List.range f.args.length).filter fun i => followed.any fun fs =>
    fs.1 == f.name && (match f.args[i]? with | some a => fs.2.contains a | none => false)

theorem given_spec {f : Fn} {n : Nat → Bool} (h : Given f n) : ∀ p ∈ given f, n p = false := by
  intro p hp
  obtain ⟨hl, h1⟩ := List.mem_filter.mp hp
  have hl := List.mem_range.mp hl
  obtain ⟨fs, hfs, h2⟩ := List.any_eq_true.mp h1
  obtain ⟨h3, h4⟩ := (Bool.and_eq_true _ _).mp h2
  rw [List.getElem?_eq_getElem hl] at h4
  exact h fs hfs (beq_iff_eq.mp h3) p hl (List.contains_iff_mem.mp h4)

theorem checked : (table.all fun f => check f.needs (given f) [] f.body) = true := by decide +kernel

theorem all_sound {f : Fn} (hf : f ∈ table) {n : Nat → Bool} (hg : Given f n) :
    (run n f.body = .done ∧ ∀ g ∈ f.needs, ∃ p ∈ g, n p = false) ∨
      ∃ a, run n f.body = .refused a ∧ ∃ g ∈ f.needs, ∀ p ∈ g, n p = true :=
  check_sound f.body ⟨given_spec hg, fun _ h => absurd h List.not_mem_nil⟩ (List.all_eq_true.mp checked f hf)

/-- No public function reads or writes through NULL, whichever of its pointer arguments are NULL. Missing: the arguments
listed in `followed`, which are not tested. -/
theorem C209_safe_partial {f : Fn} (hf : f ∈ table) {n : Nat → Bool} (hg : Given f n) : run n f.body ≠ .crash := by
  rcases all_sound hf hg with ⟨h, _⟩ | ⟨a, h, _⟩ <;> rw [h] <;> exact fun e => End.noConfusion e

/-- A call is refused on account of NULL exactly if something it needs is missing. Missing: as in `C209_safe_partial`. -/
theorem C209_refused_partial {f : Fn} (hf : f ∈ table) {n : Nat → Bool} (hg : Given f n) :
    (∃ a, run n f.body = .refused a) ↔ Lacking f n := by
  rcases all_sound hf hg with ⟨h, hn⟩ | ⟨a, h, hl⟩
  · constructor
    · rintro ⟨a, ha⟩; rw [h] at ha; cases ha
    · rintro ⟨g, hg, hall⟩
      obtain ⟨p, hp, hf⟩ := hn g hg
      rw [hall p hp] at hf; cases hf
  · exact ⟨fun _ => hl, fun _ => ⟨a, h⟩⟩

theorem optional_checked : (table.all fun f => f.name == "nostr_event_add_reply_tags" || f.needs.all fun g => g.any fun p =>
    match f.args[p]? with | some a => !optional.contains (f.name, a) | none => false) = true := by decide +kernel

/-- A caller who leaves out only what the headers call optional is not refused for it, and nothing is read or written
through NULL. Missing: replies, where both ids are called optional but one is needed. -/
theorem C209_optional_partial {f : Fn} (hf : f ∈ table) (hr : f.name ≠ "nostr_event_add_reply_tags") {n : Nat → Bool}
    (ho : OnlyOptional f n) (hg : Given f n) : run n f.body = .done := by
  rcases all_sound hf hg with ⟨h, _⟩ | ⟨a, _, g, hgn, hall⟩
  · exact h
  · exfalso
    have h1 := List.all_eq_true.mp optional_checked f hf
    rcases (Bool.or_eq_true _ _).mp h1 with h1 | h1
    · exact hr (beq_iff_eq.mp h1)
    · obtain ⟨p, hp, h2⟩ := List.any_eq_true.mp (List.all_eq_true.mp h1 g hgn)
      by_cases hl : p < f.args.length
      · rw [List.getElem?_eq_getElem hl] at h2
        have h3 := List.contains_iff_mem.mpr (ho p hl (hall p hp))
        simp only [h3] at h2
        cases h2
      · rw [List.getElem?_eq_none (Nat.le_of_not_lt hl)] at h2
        cases h2

/-- The function of the table with a given name. -/
def named (s : String) : Option Fn := table.find? fun f => f.name == s

/-- Arguments are NULL exactly if listed. -/
def nulls (l : List Nat) : Nat → Bool := l.contains

theorem find_named {s : String} {f : Fn} (h : named s = some f) : f ∈ table ∧ f.name = s :=
  ⟨List.mem_of_find?_eq_some h, by have h' := List.find?_some (p := fun f : Fn => f.name == s) h; exact beq_iff_eq.mp h'⟩

/-- What happens if the listed arguments of the named function are NULL. -/
def callWith (s : String) (l : List Nat) : Option End := (named s).map fun f => run (nulls l) f.body

/-- Four functions follow NULL: random bytes to NULL, a comparison with NULL, a record NULL among those of a payment to a
key, and an invoice NULL among many. -/
theorem C209_refuted :
    callWith "nostr_random_bytes" [0] = some .crash ∧
    callWith "nostr_constant_time_memcmp" [0] = some .crash ∧
    callWith "nostr_constant_time_memcmp" [1] = some .crash ∧
    callWith "nostr_nip47_create_pay_keysend_params" [4] = some .crash ∧
    callWith "nostr_nip47_create_multi_pay_invoice_params" [4] = some .crash := by decide +kernel

/-- A reply with neither a root nor a parent is refused, though each is called optional. -/
theorem C209_reply_refuted :
    ("nostr_event_add_reply_tags", "root_id") ∈ optional ∧ ("nostr_event_add_reply_tags", "reply_id") ∈ optional ∧
    callWith "nostr_event_add_reply_tags" [1, 4] = some (.refused (.code .invalidParam)) := by decide +kernel

/-- The table has every function that a public header declares, and no other, in the order of the sources. -/
theorem C209_every : table.map (·.name) = (Build.names.filter fun x => x.declared.isSome).map (·.name) := by decide +kernel

/-! Cases. -/

/-- The arguments of a reply: event, root id, its relay and author, reply id, its relay and author. -/
example : (named "nostr_event_add_reply_tags").map (·.args) =
    some ["event", "root_id", "root_relay", "root_pubkey", "reply_id", "reply_relay", "reply_pubkey"] := by decide +kernel

/-- A key without a buffer for its text is refused; a receipt read with no outputs is not. -/
example : callWith "nostr_key_to_bech32" [2] = some (.refused (.code .invalidParam)) ∧
    callWith "nostr_zap_parse_receipt" [1, 2, 3, 4] = some .done ∧ callWith "nostr_filter_get_ids" [0, 1] = some (.refused .null) := by
  decide +kernel

/-- The last case meets the hypotheses of `C209_optional_partial`. -/
example : ∃ f, named "nostr_zap_parse_receipt" = some f ∧ OnlyOptional f (nulls [1, 2, 3, 4]) ∧ Given f (nulls [1, 2, 3, 4]) := by
  have h : (named "nostr_zap_parse_receipt").isSome = true := by decide +kernel
  obtain ⟨f, hf⟩ := Option.isSome_iff_exists.mp h
  have e : f.args = ["event", "amount", "bolt11", "preimage", "zap_request"] := by
    have : (named "nostr_zap_parse_receipt").map (·.args) = some ["event", "amount", "bolt11", "preimage", "zap_request"] := by
      decide +kernel
    rw [hf] at this; exact Option.some.inj this
  have en := (find_named hf).2
  refine ⟨f, hf, ?_, ?_⟩
  · intro i hi hn
    rw [en]
    simp only [e] at hi ⊢
    have : ∀ i (h : i < 5), nulls [1, 2, 3, 4] i = true →
        ("nostr_zap_parse_receipt", (["event", "amount", "bolt11", "preimage", "zap_request"] : List String)[i]) ∈ optional := by
      decide +kernel
    exact this i hi hn
  · intro fs hfs he
    rw [en] at he
    exfalso
    revert fs
    decide +kernel

end Nostr.Null.Props
