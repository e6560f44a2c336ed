import Verif.Filter.Spec
import Verif.RelayProto.Lemmas

/-! # Lemmas about filters -/

namespace Nostr.Filter
open Nostr Nostr.Event Nostr.Json Nostr.RelayProto Spec

theorem hexStartsWith_iff {hex pre : Bytes} : hexStartsWith hex pre = true ↔ pre <+: hex := by
  unfold hexStartsWith
  split
  · rename_i h
    simp only [Bool.false_eq_true, false_iff]
    intro hp
    have := hp.length_le
    omega
  · simp only [decide_eq_true_eq]
    rw [List.prefix_iff_eq_take]
    exact eq_comm

theorem mem_tagValuesN {name v : Bytes} : ∀ (tags : List (List Bytes)) (n : Nat),
    v ∈ tagValuesN name n tags → ∃ more, (name :: v :: more) ∈ tags := by
  intro tags
  induction tags with
  | nil => intro n h; cases n <;> simp [tagValuesN] at h
  | cons t ts ih =>
    intro n h
    cases n with
    | zero => simp [tagValuesN] at h
    | succ n =>
      match t, h with
      | [], h => obtain ⟨m, hm⟩ := ih (n + 1) (by simpa [tagValuesN] using h); exact ⟨m, by simp [hm]⟩
      | [_], h => obtain ⟨m, hm⟩ := ih (n + 1) (by simpa [tagValuesN] using h); exact ⟨m, by simp [hm]⟩
      | a :: b :: r, h =>
        unfold tagValuesN at h
        split at h
        · rename_i ha
          rcases List.mem_cons.1 h with rfl | h
          · exact ⟨r, by simp [ha]⟩
          · obtain ⟨m, hm⟩ := ih n h; exact ⟨m, by simp [hm]⟩
        · obtain ⟨m, hm⟩ := ih (n + 1) h; exact ⟨m, by simp [hm]⟩

/-- With at most `n` values under the name, none is missed. -/
theorem tagValuesN_mem {name v : Bytes} : ∀ (tags : List (List Bytes)) (n : Nat),
    (tags.filter fun t => t.head? == some name).length ≤ n → ∀ more, (name :: v :: more) ∈ tags →
    v ∈ tagValuesN name n tags := by
  intro tags
  induction tags with
  | nil => intro n _ more h; simp at h
  | cons t ts ih =>
    intro n hn more h
    match t, hn, h with
    | [], hn, h =>
      have h' : (name :: v :: more) ∈ ts := by simpa using h
      have := ih n (by simpa using hn) more h'
      cases n with
      | zero => simp [tagValuesN] at this
      | succ n => simpa [tagValuesN] using this
    | [a], hn, h =>
      have h' : (name :: v :: more) ∈ ts := by simpa using h
      have hn' : (ts.filter fun t => t.head? == some name).length ≤ n := by
        refine Nat.le_trans ?_ hn
        rw [List.filter_cons]; split <;> simp
      have := ih n hn' more h'
      cases n with
      | zero => simp [tagValuesN] at this
      | succ n => simpa [tagValuesN] using this
    | a :: b :: r, hn, h =>
      by_cases ha : a = name
      · subst ha
        cases n with
        | zero => simp at hn
        | succ n =>
          simp only [tagValuesN, if_true, List.mem_cons]
          rcases List.mem_cons.1 h with h | h
          · simp at h; exact .inl h.1
          · right
            exact ih n (by simpa using hn) more h
      · have h' : (name :: v :: more) ∈ ts := by
          rcases List.mem_cons.1 h with h | h
          · simp at h; exact absurd h.1.symm ha
          · exact h
        have hn' : (ts.filter fun t => t.head? == some name).length ≤ n := by
          simpa [ha] using hn
        have := ih n hn' more h'
        cases n with
        | zero => simp [tagValuesN] at this
        | succ n => simpa [tagValuesN, ha] using this

theorem tagMatch_sound {e : Event} {name : Bytes} {vs : List Bytes} (h : tagMatch e name vs = true) :
    ∃ v ∈ vs, HasTag e name v := by
  unfold tagMatch at h
  simp only [List.any_eq_true, decide_eq_true_eq] at h
  obtain ⟨w, hw, v, hv, rfl⟩ := h
  exact ⟨v, hw, mem_tagValuesN _ _ hv⟩

theorem tagMatch_complete {e : Event} {name : Bytes} {vs : List Bytes}
    (hn : (e.tags.filter fun t => t.head? == some name).length ≤ maxValues)
    (h : ∃ v ∈ vs, HasTag e name v) : tagMatch e name vs = true := by
  obtain ⟨v, hv, m, hm⟩ := h
  unfold tagMatch
  simp only [List.any_eq_true, decide_eq_true_eq]
  exact ⟨v, hv, v, tagValuesN_mem _ _ hn m hm, rfl⟩

/-- `matches_` as a conjunction. -/
theorem matches_iff (f : Filter) (e : Event) : matches_ f e = true ↔
    (f.ids ≠ [] → ∃ p ∈ f.ids, p <+: Hex.Spec.hexText e.id) ∧
    (f.authors ≠ [] → ∃ p ∈ f.authors, p <+: Hex.Spec.hexText e.pubkey) ∧
    (f.kinds ≠ [] → (e.kind : Int) ∈ f.kinds) ∧
    (f.since > 0 → f.since ≤ e.createdAt) ∧ (f.until_ > 0 → e.createdAt ≤ f.until_) ∧
    (f.eTags ≠ [] → tagMatch e (c!"e") f.eTags = true) ∧
    (f.pTags ≠ [] → tagMatch e (c!"p") f.pTags = true) ∧
    ∀ g ∈ f.generic, tagMatch e [g.1] g.2 = true := by
  have cond : ∀ (c b : Bool) (r : Bool) (P : Prop), (P ↔ (c = true → b = true)) →
      ((if (c && !b) = true then false else r) = true ↔ P ∧ r = true) := by
    intro c b r P hP
    rw [hP]
    cases c <;> cases b <;> simp
  have hids : ∀ (l : List Bytes) (x : Bytes), (l ≠ [] → ∃ p ∈ l, p <+: Hex.Spec.hexText x) ↔
      (decide (l ≠ []) = true → l.any (hexStartsWith (Hex.hexEncode x)) = true) := by
    intro l x
    simp only [decide_eq_true_eq, List.any_eq_true, hexStartsWith_iff, Hex.hexEncode_eq]
  unfold matches_
  rw [cond _ _ _ _ (hids f.ids e.id), cond _ _ _ _ (hids f.authors e.pubkey),
    cond _ _ _ (f.kinds ≠ [] → (e.kind : Int) ∈ f.kinds) (by simp [List.any_eq_true])]
  refine and_congr_right fun _ => and_congr_right fun _ => and_congr_right fun _ => ?_
  by_cases h1 : f.since > 0 ∧ e.createdAt < f.since
  · rw [if_pos h1]
    simp only [Bool.false_eq_true, false_iff, not_and]
    intro h; have := h h1.1; omega
  · rw [if_neg h1]
    have h1' : f.since > 0 → f.since ≤ e.createdAt := by omega
    by_cases h2 : f.until_ > 0 ∧ e.createdAt > f.until_
    · rw [if_pos h2]
      simp only [Bool.false_eq_true, false_iff, not_and]
      intro _ h; have := h h2.1; omega
    · rw [if_neg h2]
      have h2' : f.until_ > 0 → e.createdAt ≤ f.until_ := by omega
      rw [cond _ _ _ (f.eTags ≠ [] → tagMatch e (c!"e") f.eTags = true) (by simp),
        cond _ _ _ (f.pTags ≠ [] → tagMatch e (c!"p") f.pTags = true) (by simp), List.all_eq_true]
      exact ⟨fun h => ⟨h1', h2', h⟩, fun h => h.2.2⟩

/-! ## parsing -/

theorem find_distinct {m : List (Bytes × Json)} (hd : m.Pairwise fun a b => ¬ sameKey a.1 b.1)
    {k : Bytes} {v : Json} (h : (k, v) ∈ m) : get (.obj m) k = some v := by
  unfold Json.get
  induction m with
  | nil => simp at h
  | cons x m ih =>
    rw [List.pairwise_cons] at hd
    rcases List.mem_cons.1 h with rfl | h
    · simp
    · have hne : ¬ sameKey x.1 k := hd.1 _ h
      have : (x.1.map lowerC == k.map lowerC) = false := by
        simpa [sameKey] using hne
      simp only [List.find?_cons, this]
      exact ih hd.2 h

theorem parseStrings_ok {j : Option Json} {vs : List Bytes} (h : parseStrings j = .ok vs) :
    ∀ v ∈ vs, ∃ l, j = some (.arr l) ∧ .str v ∈ l := by
  unfold parseStrings at h
  intro v hv
  cases j with
  | none => simp at h; subst h; simp at hv
  | some j =>
    cases j <;> simp [asArr] at h
    case arr l =>
      split at h
      · simp at h
      · simp only [Res.ok.injEq] at h
        subst h
        refine ⟨l, rfl, ?_⟩
        simp only [List.mem_filterMap] at hv
        obtain ⟨a, ha, hs⟩ := hv
        cases a <;> simp [asStr] at hs
        subst hs; exact ha
    all_goals (subst h; simp at hv)

theorem parseStrings_ne {l : List Json} {s : Bytes} {vs : List Bytes} (hs : Json.str s ∈ l)
    (h : parseStrings (some (.arr l)) = .ok vs) : s ∈ vs := by
  unfold parseStrings at h
  simp only [Option.bind_some, asArr] at h
  split at h
  · simp at h
  · simp only [Res.ok.injEq] at h
    subst h
    simp only [List.mem_filterMap]
    exact ⟨_, hs, rfl⟩

theorem parseGeneric_mem {ms : List (Bytes × Json)} {gs : List (UInt8 × List Bytes)}
    (h : parseGeneric ms = .ok gs) {k : Bytes} {v : Json} {c : UInt8} (hm : (k, v) ∈ ms)
    (hc : genericLetter k = some c) : ∃ vs, parseStrings (some v) = .ok vs ∧ (c, vs) ∈ gs := by
  induction ms generalizing gs with
  | nil => simp at hm
  | cons x ms ih =>
    obtain ⟨k', v'⟩ := x
    unfold parseGeneric at h
    rcases List.mem_cons.1 hm with he | hm
    · simp only [Prod.mk.injEq] at he
      obtain ⟨rfl, rfl⟩ := he
      simp only [hc] at h
      rw [Res.bind_eq_ok] at h
      obtain ⟨vs, h1, h⟩ := h
      rw [Res.bind_eq_ok] at h
      obtain ⟨r, h2, h⟩ := h
      simp only [Res.ok.injEq] at h
      subst h
      exact ⟨vs, h1, by simp⟩
    · cases hg : genericLetter k' with
      | none => simp only [hg] at h; exact ih h hm
      | some c' =>
        simp only [hg] at h
        rw [Res.bind_eq_ok] at h
        obtain ⟨vs, h1, h⟩ := h
        rw [Res.bind_eq_ok] at h
        obtain ⟨r, h2, h⟩ := h
        simp only [Res.ok.injEq] at h
        subst h
        obtain ⟨vs', h3, h4⟩ := ih h2 hm
        exact ⟨vs', h3, by simp [h4]⟩

theorem parseGeneric_back {ms : List (Bytes × Json)} {gs : List (UInt8 × List Bytes)}
    (h : parseGeneric ms = .ok gs) {c : UInt8} {vs : List Bytes} (hm : (c, vs) ∈ gs) :
    ∃ k v, (k, v) ∈ ms ∧ genericLetter k = some c ∧ parseStrings (some v) = .ok vs := by
  induction ms generalizing gs with
  | nil => simp only [parseGeneric, Res.ok.injEq] at h; subst h; simp at hm
  | cons x ms ih =>
    obtain ⟨k', v'⟩ := x
    unfold parseGeneric at h
    cases hg : genericLetter k' with
    | none =>
      simp only [hg] at h
      obtain ⟨k, v, h1, h2⟩ := ih h hm
      exact ⟨k, v, by simp [h1], h2⟩
    | some c' =>
      simp only [hg] at h
      rw [Res.bind_eq_ok] at h
      obtain ⟨ws, h1, h⟩ := h
      rw [Res.bind_eq_ok] at h
      obtain ⟨r, h2, h⟩ := h
      simp only [Res.ok.injEq] at h
      subst h
      rcases List.mem_cons.1 hm with he | hm
      · simp only [Prod.mk.injEq] at he
        obtain ⟨rfl, rfl⟩ := he
        exact ⟨k', v', by simp, hg, h1⟩
      · obtain ⟨k, v, h3, h4⟩ := ih h2 hm
        exact ⟨k, v, by simp [h3], h4⟩

theorem isAlpha_iff (c : UInt8) : isAlpha c = true ↔ Letter c := by
  unfold isAlpha Letter
  simp only [Bool.or_eq_true, Bool.and_eq_true, decide_eq_true_eq, UInt8.le_iff_toNat_le]
  rfl

theorem genericLetter_iff {k : Bytes} {c : UInt8} : genericLetter k = some c ↔
    k = [0x23, c] ∧ Letter c ∧ c ≠ 0x65 ∧ c ≠ 0x70 := by
  unfold genericLetter
  split
  · rename_i h d
    constructor
    · intro hh
      split at hh
      · rename_i hc
        simp only [Option.some.injEq] at hh
        subst hh
        exact ⟨by rw [hc.1], (isAlpha_iff _).1 hc.2.2.2, hc.2.1, hc.2.2.1⟩
      · simp at hh
    · rintro ⟨hk, hl, h1, h2⟩
      simp only [List.cons.injEq, and_true] at hk
      obtain ⟨rfl, rfl⟩ := hk
      rw [if_pos ⟨rfl, h1, h2, (isAlpha_iff _).2 hl⟩]
  · rename_i hne
    simp only [reduceCtorEq, false_iff, not_and]
    intro hk
    exact absurd hk (hne _ _)

theorem ofTree_ok {real : Bytes → Int} {root : Json} {f : Filter} (h : ofTree real root = .ok f) :
    parseStrings (get root (c!"ids")) = .ok f.ids ∧ parseStrings (get root (c!"authors")) = .ok f.authors ∧
    parseInts real (get root (c!"kinds")) = .ok f.kinds ∧ parseStrings (get root (c!"#e")) = .ok f.eTags ∧
    parseStrings (get root (c!"#p")) = .ok f.pTags ∧ parseGeneric (members root) = .ok f.generic ∧
    f.since = parseTime real (get root (c!"since")) ∧ f.until_ = parseTime real (get root (c!"until")) := by
  unfold ofTree at h
  rw [Res.bind_eq_ok] at h; obtain ⟨a1, h1, h⟩ := h
  rw [Res.bind_eq_ok] at h; obtain ⟨a2, h2, h⟩ := h
  rw [Res.bind_eq_ok] at h; obtain ⟨a3, h3, h⟩ := h
  rw [Res.bind_eq_ok] at h; obtain ⟨a4, h4, h⟩ := h
  rw [Res.bind_eq_ok] at h; obtain ⟨a5, h5, h⟩ := h
  rw [Res.bind_eq_ok] at h; obtain ⟨a6, h6, h⟩ := h
  rw [Res.bind_eq_ok] at h; obtain ⟨a7, h7, h⟩ := h
  simp only [Res.ok.injEq] at h
  subst h
  exact ⟨h1, h2, h3, h4, h5, h6, rfl, rfl⟩

theorem valueint_decInt (real : Bytes → Int) {n : Int} (h : n.natAbs < 2 ^ 31 - 1) :
    valueint real (Num.decInt n) = n := by
  unfold valueint
  rw [int64_decInt real (by omega)]
  simp only
  rw [if_neg (by omega), if_neg (by omega)]

end Nostr.Filter
