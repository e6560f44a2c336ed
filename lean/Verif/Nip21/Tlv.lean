import Verif.Nip21.Spec
import Verif.Nip21.Lemmas
import Mathlib.Tactic.Tauto
import Mathlib.Data.List.Induction

/-! # Helper lemmas for NIP-21: the TLV layer -/

namespace Nostr.Nip21
open Nostr Nostr.Bech32 Spec

theorem validRelay_iff (u : Bytes) : isValidRelayUrl u = decide (RelayUrl u) := by
  rw [Bool.eq_iff_iff, decide_eq_true_eq]
  unfold isValidRelayUrl RelayUrl maxRelayLen
  split
  · simp; omega
  · split
    · simp; omega
    · split
      · rename_i h
        simp only [Bool.and_eq_true, Bool.not_eq_true', ← Bool.not_eq_true, List.isPrefixOf_iff_prefix] at h
        simp [h.1, h.2]
      · rename_i h1 h2 h3
        simp only [Bool.and_eq_true, Bool.not_eq_true', ← Bool.not_eq_true, List.isPrefixOf_iff_prefix] at h3
        simp only [List.all_eq_true, decide_eq_true_eq]
        constructor
        · intro h
          refine ⟨by omega, by omega, by tauto, fun c hc => ?_⟩
          have := h c hc
          simpa [UInt8.le_iff_toNat_le] using this
        · rintro ⟨_, _, _, h⟩ c hc
          have := h c hc
          simpa [UInt8.le_iff_toNat_le] using this

theorem be32_eq (a b c d : UInt8) : be32 a b c d = BitVec.ofNat 32 (beNat [a, b, c, d]) := by
  have ha := a.toNat_lt
  have hb := b.toNat_lt
  have hc := c.toNat_lt
  have hd := d.toNat_lt
  apply BitVec.eq_of_toNat_eq
  simp only [be32, BitVec.toNat_or, BitVec.toNat_shiftLeft, BitVec.toNat_setWidth,
    UInt8.toNat_toBitVec, beNat, List.foldl, BitVec.toNat_ofNat]
  have e1 : (a.toNat % 2 ^ 32) <<< 24 % 2 ^ 32 = (a.toNat <<< 24) := by
    simp only [Nat.shiftLeft_eq]; omega
  have e2 : (b.toNat % 2 ^ 32) <<< 16 % 2 ^ 32 = (b.toNat <<< 16) := by
    simp only [Nat.shiftLeft_eq]; omega
  have e3 : (c.toNat % 2 ^ 32) <<< 8 % 2 ^ 32 = (c.toNat <<< 8) := by
    simp only [Nat.shiftLeft_eq]; omega
  rw [e1, e2, e3, ← Nat.shiftLeft_add_eq_or_of_lt (by rw [Nat.shiftLeft_eq]; omega)]
  have e4 : a.toNat <<< 24 + b.toNat <<< 16 = (a.toNat * 256 + b.toNat) <<< 16 := by
    simp only [Nat.shiftLeft_eq]; omega
  rw [e4, ← Nat.shiftLeft_add_eq_or_of_lt (by rw [Nat.shiftLeft_eq]; omega)]
  have e5 : (a.toNat * 256 + b.toNat) <<< 16 + c.toNat <<< 8
      = ((a.toNat * 256 + b.toNat) * 256 + c.toNat) <<< 8 := by
    simp only [Nat.shiftLeft_eq]; omega
  have e6 : d.toNat % 2 ^ 32 = d.toNat := by omega
  rw [e5, e6, ← Nat.shiftLeft_add_eq_or_of_lt (by omega)]
  simp only [Nat.shiftLeft_eq]
  omega

/-- Effect of one record on the parser's outputs. -/
def step (a : TlvArgs) (st : Tlv) (r : Rec) : Tlv :=
  if r.type = 0 then { st with special := r.value }
  else if r.type = 1 then
    if a.wantRelays ∧ st.relays.length < a.maxRelays ∧ RelayUrl r.value then
      { st with relays := st.relays ++ [r.value] } else st
  else if r.type = 2 then
    if a.wantAuthor ∧ r.value.length = 32 then { st with author := some r.value } else st
  else if r.type = 3 then
    if a.wantKind ∧ r.value.length = 4 then
      { st with kind := some (BitVec.ofNat 32 (beNat r.value)) } else st
  else st

theorem rd_at (pre rest : Bytes) (b : UInt8) : rd (pre ++ b :: rest) pre.length = .ok b := by
  simp [rd]

theorem slice_at (pre v rest : Bytes) :
    slice (pre ++ (v ++ rest)) pre.length v.length = .ok v := by
  unfold slice
  rw [if_neg (by simp)]
  simp

theorem record_eq (a : TlvArgs) (ha : a.maxRelays ≤ 16) (pre v rest : Bytes) (t : UInt8)
    (st : Tlv) :
    record a (pre ++ (v ++ rest)) t pre.length v.length st =
      if t = 0 ∧ a.specialSize < v.length then .err .encoding else .ok (step a st ⟨t, v⟩) := by
  have hsl := slice_at pre v rest
  unfold record step
  by_cases h0 : t = 0
  · simp only [h0, true_and, if_true]
    by_cases hs : a.specialSize < v.length
    · simp [hs]
    · rw [if_neg hs, if_neg (by omega), hsl]
      simp
  · simp only [h0, false_and, if_false]
    by_cases h1 : t = 1
    · simp only [h1, if_true]
      by_cases hr : a.wantRelays = true ∧ st.relays.length < a.maxRelays
      · rw [if_pos hr, hsl, Res.bind_ok, validRelay_iff]
        by_cases hu : RelayUrl v
        · simp only [hu, decide_true]
          rw [if_neg (by decide), if_neg (by omega)]
          simp [hr]
        · simp [hu]
      · rw [if_neg hr, if_neg (by intro h; exact hr ⟨h.1, h.2.1⟩)]
    · simp only [h1, if_false]
      by_cases h2 : t = 2
      · simp only [h2, if_true]
        by_cases hw : a.wantAuthor = true ∧ v.length = 32
        · rw [if_pos hw, if_pos hw, ← hw.2, hsl]
          simp
        · rw [if_neg hw, if_neg hw]
      · simp only [h2, if_false]
        by_cases h3 : t = 3
        · simp only [h3, if_true]
          by_cases hw : a.wantKind = true ∧ v.length = 4
          · rw [if_pos hw, if_pos hw]
            obtain ⟨b0, b1, b2, b3, rfl⟩ : ∃ b0 b1 b2 b3, v = [b0, b1, b2, b3] := by
              match v, hw.2 with
              | [b0, b1, b2, b3], _ => exact ⟨_, _, _, _, rfl⟩
            have r0 := rd_at pre ([b1, b2, b3] ++ rest) b0
            have r1 := rd_at (pre ++ [b0]) ([b2, b3] ++ rest) b1
            have r2 := rd_at (pre ++ [b0, b1]) ([b3] ++ rest) b2
            have r3 := rd_at (pre ++ [b0, b1, b2]) rest b3
            simp only [List.append_assoc, List.length_append, List.length_cons, List.length_nil,
              List.cons_append, List.nil_append, Nat.zero_add, Nat.reduceAdd] at r0 r1 r2 r3
            simp only [List.cons_append, List.nil_append, r0, r1, r2, r3, Res.bind_ok, be32_eq]
          · rw [if_neg hw, if_neg hw]
        · simp only [h3, if_false]

theorem loop_step (a : TlvArgs) (ha : a.maxRelays ≤ 16) (pre v rest : Bytes) (t : UInt8)
    (hv : v.length ≤ 255) (fuel : Nat) (st : Tlv) :
    parseLoop a (pre ++ (t :: UInt8.ofNat v.length :: (v ++ rest))) (fuel + 1) pre.length st =
      if t = 0 ∧ a.specialSize < v.length then .err .encoding
      else parseLoop a (pre ++ (t :: UInt8.ofNat v.length :: (v ++ rest))) fuel
        (pre.length + 2 + v.length) (step a st ⟨t, v⟩) := by
  have hlen : (UInt8.ofNat v.length).toNat = v.length := by simp; omega
  have hrd1 : rd (pre ++ (t :: UInt8.ofNat v.length :: (v ++ rest))) pre.length = .ok t := rd_at _ _ _
  have hrd2 : rd (pre ++ (t :: UInt8.ofNat v.length :: (v ++ rest))) (pre.length + 1)
      = .ok (UInt8.ofNat v.length) := by
    have := rd_at (pre ++ [t]) (v ++ rest) (UInt8.ofNat v.length)
    simpa using this
  have hrec : record a (pre ++ (t :: UInt8.ofNat v.length :: (v ++ rest))) t (pre.length + 2)
      v.length st = if t = 0 ∧ a.specialSize < v.length then .err .encoding
        else .ok (step a st ⟨t, v⟩) := by
    have := record_eq a ha (pre ++ [t, UInt8.ofNat v.length]) v rest t st
    rw [List.append_assoc, List.length_append] at this
    exact this
  conv => lhs; unfold parseLoop
  rw [if_pos (by simp), hrd1, Res.bind_ok, hrd2, Res.bind_ok, hlen, if_neg (by simp; omega), hrec]
  split <;> simp

theorem wire_cons (r : Rec) (rs : List Rec) :
    wire (r :: rs) = r.type :: UInt8.ofNat r.value.length :: (r.value ++ wire rs) := by
  simp [wire]

theorem wire_append (rs ss : List Rec) : wire (rs ++ ss) = wire rs ++ wire ss := by
  simp [wire]

/-- The loop over well-formed records, leaving the rest of the buffer. -/
theorem loop_wire (a : TlvArgs) (ha : a.maxRelays ≤ 16) (rest : Bytes) (rs : List Rec) (hw : Wf rs) :
    ∀ (pre : Bytes) (fuel : Nat) (st : Tlv), (wire rs).length ≤ fuel →
      ∃ fuel', fuel ≤ fuel' + (wire rs).length ∧
      parseLoop a (pre ++ (wire rs ++ rest)) fuel pre.length st =
        if (∃ r ∈ rs, r.type = 0 ∧ a.specialSize < r.value.length) then .err .encoding
        else parseLoop a (pre ++ (wire rs ++ rest)) fuel' (pre.length + (wire rs).length)
          (rs.foldl (step a) st) := by
  induction rs with
  | nil => intro pre fuel st _; exact ⟨fuel, by omega, by simp [wire]⟩
  | cons r rs ih =>
    intro pre fuel st hf
    rw [wire_cons] at hf ⊢
    simp only [List.length_cons, List.length_append] at hf
    obtain ⟨fuel, rfl⟩ : ∃ f, fuel = f + 1 := ⟨fuel - 1, by omega⟩
    have hstep := loop_step a ha pre r.value (wire rs ++ rest) r.type (hw r (by simp)) fuel st
    have hassoc : pre ++ (r.type :: UInt8.ofNat r.value.length :: (r.value ++ wire rs) ++ rest)
        = pre ++ (r.type :: UInt8.ofNat r.value.length :: (r.value ++ (wire rs ++ rest))) := by simp
    rw [hassoc, hstep]
    by_cases hb : r.type = 0 ∧ a.specialSize < r.value.length
    · refine ⟨fuel, by simp only [List.length_cons, List.length_append]; omega, ?_⟩
      rw [if_pos hb, if_pos ⟨r, by simp, hb⟩]
    · rw [if_neg hb]
      obtain ⟨fuel', h1, h2⟩ := ih (fun x hx => hw x (by simp [hx]))
        (pre ++ (r.type :: UInt8.ofNat r.value.length :: r.value)) fuel (step a st r) (by omega)
      refine ⟨fuel', by simp only [List.length_cons, List.length_append]; omega, ?_⟩
      have e1 : pre ++ (r.type :: UInt8.ofNat r.value.length :: r.value) ++ (wire rs ++ rest)
          = pre ++ (r.type :: UInt8.ofNat r.value.length :: (r.value ++ (wire rs ++ rest))) := by simp
      have e2 : (pre ++ (r.type :: UInt8.ofNat r.value.length :: r.value)).length
          = pre.length + 2 + r.value.length := by simp; omega
      rw [e1, e2] at h2
      rw [h2]
      have e3 : (∃ x ∈ r :: rs, x.type = 0 ∧ a.specialSize < x.value.length) ↔
          ∃ x ∈ rs, x.type = 0 ∧ a.specialSize < x.value.length := by
        constructor
        · rintro ⟨x, hx, hp⟩
          rcases List.mem_cons.1 hx with rfl | hx
          · exact absurd hp hb
          · exact ⟨x, hx, hp⟩
        · rintro ⟨x, hx, hp⟩; exact ⟨x, by simp [hx], hp⟩
      simp only [e3, List.foldl_cons, List.length_cons, List.length_append]
      congr 2
      omega

theorem lastSuch_snoc (p : Rec → Bool) (rs : List Rec) (r : Rec) :
    lastSuch p (rs ++ [r]) = if p r then some r.value else lastSuch p rs := by
  unfold lastSuch
  rw [List.filter_append]
  by_cases h : p r <;> simp [h]

theorem take_snoc (n : Nat) (l : List Bytes) (x : Bytes) :
    (l ++ [x]).take n = if (l.take n).length < n then l.take n ++ [x] else l.take n := by
  rw [List.take_append, List.length_take]
  by_cases h : l.length < n
  · rw [if_pos (by omega)]
    congr 1
    exact List.take_of_length_le (by simp; omega)
  · rw [if_neg (by omega)]
    have : n - l.length = 0 := by omega
    simp [this]

/-- The records' combined effect is the specification's meaning. -/
theorem fold_meaning (a : TlvArgs) (rs : List Rec) : rs.foldl (step a) {} = meaning a rs := by
  induction rs using List.reverseRecOn with
  | nil => simp [meaning, lastSuch]
  | append_singleton rs r ih =>
    rw [List.foldl_append, ih, List.foldl_cons, List.foldl_nil]
    unfold meaning step
    simp only [lastSuch_snoc, List.filter_append, List.map_append]
    by_cases h0 : r.type = 0
    · simp [h0]
    · by_cases h1 : r.type = 1
      · by_cases hw : a.wantRelays = true
        · by_cases hu : RelayUrl r.value
          · simp only [hw, hu, h1, List.filter_cons, List.filter_nil, List.map_cons, List.map_nil,
              decide_true, if_true, take_snoc]
            split <;> simp_all
            split <;> simp_all
          · simp [h1, hw, hu]
        · simp [h1, hw]
      · by_cases h2 : r.type = 2
        · by_cases hw : a.wantAuthor = true <;> by_cases hl : r.value.length = 32 <;>
            simp [h2, hw, hl]
        · by_cases h3 : r.type = 3
          · by_cases hw : a.wantKind = true <;> by_cases hl : r.value.length = 4 <;>
              simp [h3, hw, hl]
          · simp [h0, h1, h2, h3]

/-- Every byte string is a run of complete records followed by at most one byte or by a truncated
record. -/
theorem split_records (data : Bytes) : ∃ rs tail, Wf rs ∧ data = wire rs ++ tail ∧
    (tail.length ≤ 1 ∨ ∃ t l v, tail = t :: l :: v ∧ v.length < l.toNat) := by
  induction h : data.length using Nat.strongRecOn generalizing data with
  | ind n ih =>
    match data with
    | [] => exact ⟨[], [], by intro r hr; simp at hr, rfl, by simp⟩
    | [b] => exact ⟨[], [b], by intro r hr; simp at hr, rfl, by simp⟩
    | t :: l :: v =>
      by_cases hl : v.length < l.toNat
      · exact ⟨[], t :: l :: v, by intro r hr; simp at hr, rfl, .inr ⟨t, l, v, rfl, hl⟩⟩
      · obtain ⟨rs, tail, h1, h2, h3⟩ := ih (v.drop l.toNat).length (by simp at h ⊢; omega)
          (v.drop l.toNat) rfl
        have hlt := l.toNat_lt
        refine ⟨⟨t, v.take l.toNat⟩ :: rs, tail, ?_, ?_, h3⟩
        · intro r hr
          rcases List.mem_cons.1 hr with rfl | hr
          · simp; omega
          · exact h1 r hr
        · rw [wire_cons]
          simp only [List.length_take, Nat.min_eq_left (Nat.le_of_not_lt hl), UInt8.ofNat_toNat,
            List.cons_append, List.append_assoc, ← h2, List.take_append_drop]

theorem parse_complete (a : TlvArgs) (ha : a.maxRelays ≤ 16) (rs : List Rec) (tail : Bytes)
    (hw : Wf rs) (ht : tail.length ≤ 1) :
    parseTlv a (wire rs ++ tail) =
      if ∃ r ∈ rs, r.type = 0 ∧ a.specialSize < r.value.length then .err .encoding
      else .ok (meaning a rs) := by
  unfold parseTlv
  obtain ⟨f', h1, h2⟩ := loop_wire a ha tail rs hw [] ((wire rs ++ tail).length + 1) {} (by simp; omega)
  simp only [List.nil_append, List.length_nil, Nat.zero_add] at h2
  rw [h2]
  congr 1
  simp only [List.length_append] at h1
  obtain ⟨f, rfl⟩ : ∃ f, f' = f + 1 := ⟨f' - 1, by omega⟩
  unfold parseLoop
  rw [if_neg (by simp; omega), fold_meaning]

theorem parse_truncated (a : TlvArgs) (ha : a.maxRelays ≤ 16) (rs : List Rec) (t l : UInt8) (v : Bytes)
    (hw : Wf rs) (hv : v.length < l.toNat) :
    parseTlv a (wire rs ++ (t :: l :: v)) = .err .encoding := by
  unfold parseTlv
  obtain ⟨f', h1, h2⟩ := loop_wire a ha (t :: l :: v) rs hw []
    ((wire rs ++ (t :: l :: v)).length + 1) {} (by simp; omega)
  simp only [List.nil_append, List.length_nil, Nat.zero_add] at h2
  rw [h2]
  split
  · rfl
  · simp only [List.length_append] at h1
    obtain ⟨f, rfl⟩ : ∃ f, f' = f + 1 := ⟨f' - 1, by omega⟩
    unfold parseLoop
    have r1 := rd_at (wire rs) (l :: v) t
    have r2 := rd_at (wire rs ++ [t]) v l
    simp only [List.append_assoc, List.length_append, List.length_cons, List.length_nil,
              List.cons_append, List.nil_append, Nat.zero_add] at r2
    rw [if_pos (by simp), r1, Res.bind_ok, r2, Res.bind_ok, if_pos (by simp; omega)]

end Nostr.Nip21
