import Verif.Nip21.Tlv

/-! # Helper lemmas for NIP-21: the record builder -/

namespace Nostr.Nip21
open Nostr Nostr.Bech32 Spec

/-- The four kind bytes written by the builder. -/
abbrev be4 (k : BitVec 32) : Bytes :=
  [⟨(k >>> 24).setWidth 8⟩, ⟨(k >>> 16).setWidth 8⟩, ⟨(k >>> 8).setWidth 8⟩, ⟨k.setWidth 8⟩]

theorem beNat_be4 (k : BitVec 32) : BitVec.ofNat 32 (beNat (be4 k)) = k := by
  apply BitVec.eq_of_toNat_eq
  have := k.isLt
  simp only [be4, beNat, List.foldl, BitVec.toNat_ofNat, UInt8.toNat, BitVec.toNat_setWidth,
    BitVec.toNat_ushiftRight, Nat.shiftRight_eq_div_pow]
  omega

/-- Records of an entity. -/
def recsOf (special : Bytes) (relays : List Bytes) (author : Option Bytes) (kind : Option (BitVec 32)) :
    List Rec :=
  (if special = [] then [] else [⟨0, special⟩]) ++ relays.map (⟨1, ·⟩)
    ++ author.toList.map (⟨2, ·⟩) ++ kind.toList.map (fun k => ⟨3, be4 k⟩)

theorem wire_relays_length (rs : List Bytes) :
    (wire (rs.map (⟨1, ·⟩))).length = (rs.map (fun r => r.length + 2)).sum := by
  induction rs with
  | nil => rfl
  | cons r rs ih => rw [List.map_cons, wire_cons]; simp [ih]; omega

theorem buildRelays_gen (n : Nat) (rs : List Bytes) : ∀ out : Bytes, out.length ≤ n →
    ∃ kept, kept.Sublist rs ∧ (∀ r ∈ kept, r.length ≤ 255) ∧
      buildRelays n rs out = out ++ wire (kept.map (⟨1, ·⟩)) ∧
      (out ++ wire (kept.map (⟨1, ·⟩))).length ≤ n ∧
      ((∀ r ∈ rs, r.length ≤ 255) → out.length + (wire (rs.map (⟨1, ·⟩))).length ≤ n → kept = rs) := by
  induction rs with
  | nil => intro out h; exact ⟨[], List.nil_sublist _, by simp, by simp [buildRelays, wire], by simpa [wire], by simp⟩
  | cons r rs ih =>
    intro out h
    unfold buildRelays
    split
    · rename_i hskip
      obtain ⟨kept, h1, h2, h3, h4, h5⟩ := ih out h
      refine ⟨kept, h1.cons r, h2, h3, h4, ?_⟩
      intro ha hb
      exfalso
      have := ha r (by simp)
      rw [List.map_cons, wire_cons] at hb
      simp only [List.length_cons, List.length_append] at hb
      omega
    · rename_i hskip
      have hl : (out ++ [1, UInt8.ofNat r.length] ++ r).length ≤ n := by
        simp only [List.length_append, List.length_cons, List.length_nil]; omega
      obtain ⟨kept, h1, h2, h3, h4, h5⟩ := ih _ hl
      refine ⟨r :: kept, h1.cons_cons r, ?_, ?_, ?_, ?_⟩
      · intro x hx
        rcases List.mem_cons.1 hx with rfl | hx
        · omega
        · exact h2 x hx
      · rw [h3, List.map_cons, wire_cons]; simp
      · rw [List.map_cons, wire_cons]; simpa using h4
      · intro ha hb
        rw [h5 (fun x hx => ha x (by simp [hx])) ?_]
        rw [List.map_cons, wire_cons] at hb
        simp only [List.length_cons, List.length_append, List.length_nil] at hb ⊢
        omega

theorem take_all {α : Type} {l : List α} {n : Nat} (h : l.length ≤ n) : l.take n = l :=
  List.take_of_length_le h

/-- The builder emits the records of the entity, possibly without some of the relays. -/
theorem buildTlv_gen (n : Nat) (special : Bytes) (relays : List Bytes) (author : Option Bytes)
    (kind : Option (BitVec 32)) (ha : ∀ a, author = some a → a.length = 32)
    (hne : buildTlv n special relays author kind ≠ []) :
    ∃ kept, kept.Sublist (relays.take 16) ∧ (∀ r ∈ kept, r.length ≤ 255) ∧ special.length ≤ 255 ∧
      buildTlv n special relays author kind = wire (recsOf special kept author kind) ∧
      (wire (recsOf special kept author kind)).length ≤ n := by
  unfold buildTlv at hne ⊢
  split at hne
  · exact absurd rfl hne
  · rename_i h255
    rw [if_neg h255]
    split at hne
    · exact absurd rfl hne
    · rename_i hsp
      rw [if_neg hsp]
      simp only at hne ⊢
      set out := (if special.length > 0 then [0, UInt8.ofNat special.length] ++ special else []) with hout
      have houtw : out = wire (if special = [] then [] else [⟨0, special⟩]) := by
        rw [hout]
        by_cases hs : special = []
        · simp [hs, wire]
        · rw [if_pos (List.length_pos_iff.2 hs), if_neg hs, wire_cons]; simp [wire]
      have houtl : out.length ≤ n := by
        rw [hout]
        split
        · simp; omega
        · simp
      obtain ⟨kept, k1, k2, k3, k4, _⟩ := buildRelays_gen n (relays.take maxRelays) out houtl
      rw [k3] at hne ⊢
      split at hne
      · exact absurd rfl hne
      · rename_i hau
        rw [if_neg hau]
        refine ⟨kept, k1, k2, by omega, ?_⟩
        unfold recsOf
        simp only [wire_append]
        have h32 : UInt8.ofNat 32 = 32 := by decide
        cases author with
        | none =>
          cases kind with
          | none => simp only [houtw] at k4 ⊢; simp [wire] at k4 ⊢; exact k4
          | some k =>
            simp only at hne ⊢
            split at hne
            · exact absurd rfl hne
            · rename_i hki
              rw [if_neg hki]
              simp only [houtw] at k4 hki ⊢
              simp [wire] at k4 hki ⊢
              omega
        | some a =>
          have hal := ha a rfl
          cases kind with
          | none =>
            simp only [houtw] at k4 hau ⊢
            simp [wire, hal] at k4 hau ⊢
            omega
          | some k =>
            simp only at hne ⊢
            split at hne
            · exact absurd rfl hne
            · rename_i hki
              rw [if_neg hki]
              simp only [houtw] at k4 hki hau ⊢
              simp [wire, hal] at k4 hki hau ⊢
              omega

/-- The builder keeps everything when the records fit. -/
theorem buildTlv_full (n : Nat) (special : Bytes) (relays : List Bytes) (author : Option Bytes)
    (kind : Option (BitVec 32)) (ha : ∀ a, author = some a → a.length = 32)
    (hs : special.length ≤ 255) (hr : relays.length ≤ 16) (hrl : ∀ r ∈ relays, r.length ≤ 255)
    (hn : (wire (recsOf special relays author kind)).length ≤ n) :
    buildTlv n special relays author kind = wire (recsOf special relays author kind) := by
  unfold buildTlv
  rw [if_neg (by omega)]
  simp only [recsOf, wire_append, List.length_append] at hn
  have houtw : (if special.length > 0 then [0, UInt8.ofNat special.length] ++ special else [])
      = wire (if special = [] then [] else [⟨0, special⟩]) := by
    by_cases hs : special = []
    · simp [hs, wire]
    · rw [if_pos (List.length_pos_iff.2 hs), if_neg hs, wire_cons]; simp [wire]
  have hspl : special.length > 0 → (wire (if special = [] then [] else [⟨0, special⟩])).length
      = 2 + special.length := by
    intro h
    rw [if_neg (List.length_pos_iff.1 h), wire_cons]; simp [wire]; omega
  rw [if_neg (by rintro ⟨h1, h2⟩; have := hspl h1; omega)]
  simp only
  rw [houtw]
  obtain ⟨kept, k1, k2, k3, k4, k5⟩ := buildRelays_gen n (relays.take maxRelays)
    (wire (if special = [] then [] else [⟨0, special⟩])) (by omega)
  have ht : relays.take maxRelays = relays := take_all hr
  rw [ht] at k3 k5 ⊢
  have hk := k5 hrl (by omega)
  subst hk
  rw [k3]
  have h32 : UInt8.ofNat 32 = 32 := by decide
  unfold recsOf
  simp only [wire_append]
  cases author with
  | none =>
    rw [if_neg (by simp)]
    cases kind with
    | none => simp [wire]
    | some k =>
      rw [if_neg]
      · simp [wire]
      · simp [wire] at hn ⊢
        omega
  | some a =>
    have hal := ha a rfl
    rw [if_neg (by simp [wire, hal] at hn ⊢; omega)]
    cases kind with
    | none => simp [wire, hal]
    | some k =>
      rw [if_neg (by simp [wire, hal] at hn ⊢; omega)]
      simp [wire, hal]

theorem recsOf_wf {special : Bytes} {relays : List Bytes} {author : Option Bytes}
    {kind : Option (BitVec 32)} (ha : ∀ a, author = some a → a.length = 32)
    (hs : special.length ≤ 255) (hrl : ∀ r ∈ relays, r.length ≤ 255) :
    Wf (recsOf special relays author kind) := by
  intro r hr
  unfold recsOf at hr
  simp only [List.mem_append, List.mem_map, Option.mem_toList] at hr
  rcases hr with ((hr | ⟨x, hx, rfl⟩) | ⟨x, hx, rfl⟩) | ⟨x, hx, rfl⟩
  · split at hr
    · simp at hr
    · simp at hr; subst hr; exact hs
  · exact hrl x hx
  · have := ha x hx; simp; omega
  · simp

theorem recsOf_special {special : Bytes} {relays : List Bytes} {author : Option Bytes}
    {kind : Option (BitVec 32)} {n : Nat} (h : special.length ≤ n) :
    ¬ ∃ r ∈ recsOf special relays author kind, r.type = 0 ∧ n < r.value.length := by
  rintro ⟨r, hr, h0, hl⟩
  unfold recsOf at hr
  simp only [List.mem_append, List.mem_map, Option.mem_toList] at hr
  rcases hr with ((hr | ⟨x, hx, rfl⟩) | ⟨x, hx, rfl⟩) | ⟨x, hx, rfl⟩
  · split at hr
    · simp at hr
    · simp at hr; subst hr; simp at hl; omega
  · simp at h0
  · simp at h0
  · simp at h0

theorem filter_relays (rs : List Bytes) :
    ((List.map (fun x => ({ type := 1, value := x } : Rec)) rs).filter (fun r => decide (r.type = 1)))
      = List.map (fun x => { type := 1, value := x }) rs := by
  rw [List.filter_eq_self]; intro r hr; simp at hr; obtain ⟨_, _, rfl⟩ := hr; simp

theorem filter_relays_ne (p : Rec → Bool) (rs : List Bytes) (h : ∀ x, p ⟨1, x⟩ = false) :
    ((List.map (fun x => ({ type := 1, value := x } : Rec)) rs).filter p) = [] := by
  rw [List.filter_eq_nil_iff]; intro r hr; simp at hr; obtain ⟨_, _, rfl⟩ := hr; simp [h]

theorem meaning_recsOf (a : TlvArgs) (special : Bytes) (relays : List Bytes)
    (author : Option Bytes) (kind : Option (BitVec 32)) (ha : ∀ a, author = some a → a.length = 32) :
    meaning a (recsOf special relays author kind) =
      { special := special
        relays := if a.wantRelays then (relays.filter fun u => RelayUrl u).take a.maxRelays else []
        author := if a.wantAuthor then author else none
        kind := if a.wantKind then kind else none } := by
  unfold meaning lastSuch recsOf
  simp only [List.filter_append, List.map_append]
  rw [filter_relays, filter_relays_ne _ relays (by intro x; simp),
    filter_relays_ne _ relays (by intro x; simp), filter_relays_ne _ relays (by intro x; simp)]
  have hm : List.map Rec.value (List.map (fun x => ({ type := 1, value := x } : Rec)) relays) = relays := by
    simp [Function.comp_def]
  by_cases hs : special = [] <;> cases author <;> cases kind <;>
    simp_all [List.filter_cons, beNat_be4]

end Nostr.Nip21
