import Verif.Features.Model
import Verif.Text

/-! # Property theorems: feature report (C129) -/

namespace Nostr.Features.Props
open Nostr Nostr.Features

/-- The names a reader of the list looks for. -/
def name : Feature → Bytes
  | .encoding => c!"encoding"
  | .nip n => c!"nip" ++ [UInt8.ofNat (48 + n / 10), UInt8.ofNat (48 + n % 10)]
  | .relay => c!"relay"
  | .relayProtocol => c!"relay-protocol"
  | .hdKeys => c!"hd-keys"
  | .jsonEnhanced => c!"json-enhanced"
  | .threading => c!"threading"

theorem pieces_name : ∀ p ∈ pieces, p.2 = c!"," ++ name p.1 := by decide +kernel

/-- Two commas never follow each other, and a name has no comma. -/
theorem names_plain : ∀ p ∈ pieces, 0x2c ∉ name p.1 := by decide +kernel

theorem room : (pieces.map fun p => p.2.length).sum < 400 := by decide +kernel

theorem filter_sum (f : Feature × Bytes → Bool) (l : List (Feature × Bytes)) :
    ((l.filter f).map fun p => p.2.length).sum ≤ (l.map fun p => p.2.length).sum := by
  induction l with
  | nil => simp
  | cons p l ih =>
    by_cases h : f p
    · simp only [List.filter_cons_of_pos h, List.map_cons, List.sum_cons]; omega
    · simp only [List.filter_cons_of_neg h, List.map_cons, List.sum_cons]; omega

theorem foldl_append (l : List Bytes) : ∀ b : Buf, (l.map List.length).sum < b.remaining →
    (l.foldl append b).text = b.text ++ l.flatten := by
  induction l with
  | nil => intro b _; simp
  | cons s l ih =>
    intro b h
    simp only [List.map_cons, List.sum_cons] at h
    have ha : append b s = ⟨b.text ++ s, b.remaining - s.length⟩ := by
      unfold append; rw [if_pos (by omega)]
    rw [List.foldl_cons, ha, ih _ (by show _ < b.remaining - s.length; omega)]
    simp

/-- **C129 (the list).** In every configuration the list is the three fixed names and the names of the
reported features that are switched on, separated by commas, complete: never cut by the buffer. -/
theorem C129_list (c : Config) :
    listEnabled c = c!"std,events,keys" ++
      (((pieces.map Prod.fst).filter c).map fun f => c!"," ++ name f).flatten := by
  unfold listEnabled
  have h0 : append ⟨[], 512⟩ c!"std,events,keys" = ⟨c!"std,events,keys", 497⟩ := rfl
  rw [h0, foldl_append]
  · show _ ++ _ = _
    congr 2
    rw [List.filter_map, List.map_map]
    apply List.map_congr_left
    intro p hp
    exact pieces_name p (List.mem_filter.1 hp).1
  · show _ < 497
    rw [List.map_map]
    have := filter_sum (fun p => c p.1) pieces
    have := room
    show ((pieces.filter fun p => c p.1).map fun p => p.2.length).sum < 497
    omega

/-- The names of a list, as a reader splits it at the commas. -/
theorem split_names : ∀ (fs : List Feature) (a : Bytes), 0x2c ∉ a → (∀ f ∈ fs, 0x2c ∉ name f) →
    Text.split 0x2c (a ++ (fs.map fun f => c!"," ++ name f).flatten) = a :: fs.map name
  | [], a, ha, _ => by simpa using Text.split_piece ha
  | f :: fs, a, ha, hf => by
      have ih := split_names fs (name f) (hf f (by simp)) (fun g hg => hf g (by simp [hg]))
      have := Text.split_cons ha (name f ++ (fs.map fun f => c!"," ++ name f).flatten)
      rw [ih] at this
      simpa using this

/-- The names that a reader finds in the list. -/
theorem names_of (c : Config) : Text.split 0x2c (listEnabled c) =
    [c!"std", c!"events", c!"keys"] ++ ((pieces.map Prod.fst).filter c).map name := by
  have hp : ∀ f ∈ (pieces.map Prod.fst).filter c, 0x2c ∉ name f := by
    intro f hf
    obtain ⟨p, h, rfl⟩ := List.mem_map.1 (List.mem_filter.1 hf).1
    exact names_plain p h
  have h3 := split_names _ c!"keys" (by decide) hp
  have h2 := Text.split_cons (sep := 0x2c) (t := c!"events") (by decide) (c!"keys" ++ (((pieces.map Prod.fst).filter c).map fun f => c!"," ++ name f).flatten)
  have h1 := Text.split_cons (sep := 0x2c) (t := c!"std") (by decide) (c!"events" ++ 0x2c :: (c!"keys" ++ (((pieces.map Prod.fst).filter c).map fun f => c!"," ++ name f).flatten))
  rw [C129_list]
  rw [h2, h3] at h1
  exact h1

/-- **C129 (single questions).** A number is reported as supported exactly if it is one of the fourteen
reported NIPs and switched on; no other number is ever reported. -/
theorem C129_supported (c : Config) (n : Int) :
    supported c n = true ↔
      ∃ k : Nat, n = k ∧ k ∈ [4, 5, 10, 13, 17, 25, 44, 46, 47, 49, 51, 57, 59, 65] ∧ c (.nip k) = true := by
  constructor
  · intro h
    by_cases h4 : n = 4
    · subst h4; exact ⟨4, rfl, by decide, h⟩
    by_cases h5 : n = 5
    · subst h5; exact ⟨5, rfl, by decide, h⟩
    by_cases h10 : n = 10
    · subst h10; exact ⟨10, rfl, by decide, h⟩
    by_cases h13 : n = 13
    · subst h13; exact ⟨13, rfl, by decide, h⟩
    by_cases h17 : n = 17
    · subst h17; exact ⟨17, rfl, by decide, h⟩
    by_cases h25 : n = 25
    · subst h25; exact ⟨25, rfl, by decide, h⟩
    by_cases h44 : n = 44
    · subst h44; exact ⟨44, rfl, by decide, h⟩
    by_cases h46 : n = 46
    · subst h46; exact ⟨46, rfl, by decide, h⟩
    by_cases h47 : n = 47
    · subst h47; exact ⟨47, rfl, by decide, h⟩
    by_cases h49 : n = 49
    · subst h49; exact ⟨49, rfl, by decide, h⟩
    by_cases h51 : n = 51
    · subst h51; exact ⟨51, rfl, by decide, h⟩
    by_cases h57 : n = 57
    · subst h57; exact ⟨57, rfl, by decide, h⟩
    by_cases h59 : n = 59
    · subst h59; exact ⟨59, rfl, by decide, h⟩
    by_cases h65 : n = 65
    · subst h65; exact ⟨65, rfl, by decide, h⟩
    simp only [supported, h4, h5, h10, h13, h17, h25, h44, h46, h47, h49, h51, h57, h59, h65, if_false, Bool.false_eq_true] at h
  · rintro ⟨k, rfl, hk, hc⟩
    simp only [List.mem_cons, List.not_mem_nil, or_false] at hk
    rcases hk with h | h | h | h | h | h | h | h | h | h | h | h | h | h <;> subst h <;> exact hc

/-- **C129 (agreement).** For a NIP that is reported, the list and the question agree. -/
theorem C129_agree_partial (c : Config) (k : Nat) (hk : k ∈ options) (h18 : k ≠ 18) (h26 : k ≠ 26) :
    (supported c k = true ↔ c (.nip k) = true) ∧
    (name (.nip k) ∈ Text.split 0x2c (listEnabled c) ↔ c (.nip k) = true) := by
  have tbl : ∀ k ∈ options, k ≠ 18 → k ≠ 26 →
      k ∈ [4, 5, 10, 13, 17, 25, 44, 46, 47, 49, 51, 57, 59, 65] ∧ .nip k ∈ pieces.map Prod.fst ∧
      name (.nip k) ∉ [c!"std", c!"events", c!"keys"] ∧
      ∀ f ∈ pieces.map Prod.fst, name f = name (.nip k) → f = .nip k := by decide +kernel
  obtain ⟨h1, h2, h3, h4⟩ := tbl k hk h18 h26
  refine ⟨?_, ?_⟩
  · rw [C129_supported]
    constructor
    · rintro ⟨j, hj, _, hc⟩
      have : j = k := by omega
      subst this; exact hc
    · intro hc; exact ⟨k, rfl, h1, hc⟩
  · rw [names_of, List.mem_append]
    constructor
    · rintro (h | h)
      · exact absurd h h3
      · obtain ⟨f, hf, he⟩ := List.mem_map.1 h
        obtain ⟨hf, hc⟩ := List.mem_filter.1 hf
        rw [h4 f hf he] at hc; exact hc
    · intro hc
      exact .inr (List.mem_map.2 ⟨_, List.mem_filter.2 ⟨h2, hc⟩, rfl⟩)

/-- **C129 refuted.** NIP-18 and NIP-26 have options and are compiled when switched on, but are never reported
by either function, in any configuration. -/
theorem C129_unreported_refuted (c : Config) :
    18 ∈ options ∧ 26 ∈ options ∧ supported c 18 = false ∧ supported c 26 = false ∧
    name (.nip 18) ∉ Text.split 0x2c (listEnabled c) ∧ name (.nip 26) ∉ Text.split 0x2c (listEnabled c) := by
  have tbl : ∀ k ∈ [18, 26], name (.nip k) ∉ [c!"std", c!"events", c!"keys"] ∧
      ∀ f ∈ pieces.map Prod.fst, name f ≠ name (.nip k) := by decide +kernel
  have no : ∀ k ∈ [18, 26], name (.nip k) ∉ Text.split 0x2c (listEnabled c) := by
    intro k hk h
    rw [names_of, List.mem_append] at h
    rcases h with h | h
    · exact (tbl k hk).1 h
    · obtain ⟨f, hf, he⟩ := List.mem_map.1 h
      exact (tbl k hk).2 f (List.mem_filter.1 hf).1 he
  exact ⟨by decide, by decide, rfl, rfl, no 18 (by decide), no 26 (by decide)⟩

/-- **C129 (other features).** The questions about single features and the list agree. -/
theorem C129_others (c : Config) :
    (relayAvailable c = true ↔ name .relay ∈ Text.split 0x2c (listEnabled c)) ∧
    (relayProtocolAvailable c = true ↔ name .relayProtocol ∈ Text.split 0x2c (listEnabled c)) ∧
    (hdKeysAvailable c = true ↔ name .hdKeys ∈ Text.split 0x2c (listEnabled c)) ∧
    (jsonEnhancedAvailable c = true ↔ name .jsonEnhanced ∈ Text.split 0x2c (listEnabled c)) := by
  have tbl : ∀ g ∈ [Feature.relay, .relayProtocol, .hdKeys, .jsonEnhanced],
      g ∈ pieces.map Prod.fst ∧ name g ∉ [c!"std", c!"events", c!"keys"] ∧
      ∀ f ∈ pieces.map Prod.fst, name f = name g → f = g := by decide +kernel
  have key : ∀ g ∈ [Feature.relay, .relayProtocol, .hdKeys, .jsonEnhanced],
      (c g = true ↔ name g ∈ Text.split 0x2c (listEnabled c)) := by
    intro g hg
    obtain ⟨h2, h3, h4⟩ := tbl g hg
    rw [names_of, List.mem_append]
    constructor
    · intro hc
      exact .inr (List.mem_map.2 ⟨_, List.mem_filter.2 ⟨h2, hc⟩, rfl⟩)
    · rintro (h | h)
      · exact absurd h h3
      · obtain ⟨f, hf, he⟩ := List.mem_map.1 h
        obtain ⟨hf, hc⟩ := List.mem_filter.1 hf
        rw [h4 f hf he] at hc; exact hc
  exact ⟨key _ (by decide), key _ (by decide), key _ (by decide), key _ (by decide)⟩

/-- A build with proof of work, gift wraps and relays. -/
example : listEnabled (fun f => f ∈ [Feature.nip 13, .nip 18, .nip 59, .relay]) =
    c!"std,events,keys,nip13,nip59,relay" := by decide +kernel

end Nostr.Features.Props
