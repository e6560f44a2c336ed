import Verif.Msg.Spec
import Verif.Event.JsonLemmas
import Verif.RelayProto.Props

/-! # Lemmas about messages -/

namespace Nostr.Msg
open Nostr Nostr.Event Nostr.Json Nostr.Filter Nostr.Msg.Spec

theorem _root_.Nostr.Json.Renum.small {r} (hr : Renum r) (n : Int) (h : n.natAbs < 10 ^ 15) : r (Num.decInt n) = .num (Num.decInt n) :=
  hr.plain _ _ (plainInt_decInt h)

theorem HoldsL_iff (real r) (l : List Json) : HoldsL real r l ↔ ∀ j ∈ l, Holds real r j := by
  induction l with
  | nil => simp [HoldsL]
  | cons j l ih => simp [HoldsL, ih]

theorem HoldsM_iff (real r) (m : List (Bytes × Json)) : HoldsM real r m ↔ ∀ p ∈ m, Holds real r p.2 := by
  induction m with
  | nil => simp [HoldsM]
  | cons p m ih => obtain ⟨k, j⟩ := p; simp [HoldsM, ih]

theorem holds_get {real r j k v} (h : Holds real r j) (hg : Json.get j k = some v) : Holds real r v := by
  cases j with
  | obj m =>
    simp only [Holds] at h
    rw [HoldsM_iff] at h
    simp only [Json.get, Option.map_eq_some_iff] at hg
    obtain ⟨p, hp, rfl⟩ := hg
    exact h p (List.mem_of_find?_eq_some hp)
  | _ => simp [Json.get] at hg

section
variable {r : Bytes → Json} (hr : Renum r)
include hr

theorem str_mapNum (j : Json) (k : Bytes) :
    (Json.get (mapNum r j) k).bind asStr = (Json.get j k).bind asStr := by
  rw [get_mapNum r j k hr.noobj]
  cases Json.get j k with
  | none => rfl
  | some v => simp [asStr_mapNum hr]

theorem arr_mapNum (j : Json) (k : Bytes) :
    (Json.get (mapNum r j) k).bind asArr = ((Json.get j k).bind asArr).map (mapNumL r) := by
  rw [get_mapNum r j k hr.noobj]
  cases Json.get j k with
  | none => rfl
  | some v => simp [asArr_mapNum hr]

theorem asNum_mapNum {j : Json} (h : Holds real r j) :
    (asNum (mapNum r j) = none ∧ asNum j = none) ∨
      ∃ t t', asNum j = some t ∧ asNum (mapNum r j) = some t' ∧ int64 real t' = int64 real t := by
  cases j with
  | num t =>
    obtain ⟨t', h', h2⟩ := h
    exact .inr ⟨t, t', rfl, by simp [mapNum, h', asNum], h2⟩
  | _ => exact .inl ⟨rfl, rfl⟩

theorem num_mapNum {j : Json} (h : Holds real r j) (k : Bytes) {β : Type} (z : β) (f : Bytes → β)
    (hf : ∀ t t', int64 real t' = int64 real t → f t' = f t) :
    (match (Json.get (mapNum r j) k).bind asNum with | none => z | some t => f t) =
      (match (Json.get j k).bind asNum with | none => z | some t => f t) := by
  rw [get_mapNum r j k hr.noobj]
  cases hg : Json.get j k with
  | none => rfl
  | some v =>
    rcases asNum_mapNum hr (holds_get h hg) with ⟨h1, h2⟩ | ⟨t, t', h1, h2, h3⟩
    · simp [h1, h2]
    · simp [h1, h2, hf t t' h3]

theorem valueint_congr {t t' : Bytes} (h : int64 real t' = int64 real t) :
    valueint real t' = valueint real t := by
  unfold valueint
  rw [h]

end

theorem tagValues_mapNum {r} (hr : Renum r) (l : List Json) :
    tagValues (mapNumL r l) = tagValues l := by
  unfold tagValues
  rw [mapNumL_map, List.map_map]
  apply List.map_congr_left
  intro j _
  simp [asStr_mapNum hr]

theorem addTags_mapNum {r} (hr : Renum r) (cfg) (l : List Json) :
    ∀ e, addTags cfg e (mapNumL r l) = addTags cfg e l := by
  induction l with
  | nil => intro e; rfl
  | cons j l ih =>
    intro e
    simp only [mapNumL]
    rw [addTags, addTags, asArr_mapNum hr]
    cases asArr j with
    | none => exact ih e
    | some a =>
      cases a with
      | nil => exact ih e
      | cons v vs =>
        have := tagValues_mapNum hr (v :: vs)
        simp only [mapNumL] at this
        simp only [Option.map_some, mapNumL, this]
        split <;> first | rfl | (rename_i e1 he; exact ih _)

theorem fromTree_mapNum {P : Plat} {r} (hr : Renum r) (cfg) {j : Json} (h : Holds P.real r j) :
    fromTree P cfg (mapNum r j) = fromTree P cfg j := by
  have h1 : ∀ k n old, hexField P (mapNum r j) k n old = hexField P j k n old := by
    intro k n old; unfold hexField; rw [str_mapNum hr]
  have h2 : contentField cfg (mapNum r j) = contentField cfg j := by
    unfold contentField; rw [str_mapNum hr]
  have h3 : ∀ e, tagsField cfg (mapNum r j) e = tagsField cfg j e := by
    intro e
    unfold tagsField
    rw [arr_mapNum hr]
    cases (Json.get j (c!"tags")).bind asArr with
    | none => rfl
    | some l => simp only [Option.map_some, addTags_mapNum hr]; simp [mapNumL_map]
  have h4 : numFields P (mapNum r j) = numFields P j := by
    unfold numFields
    refine Prod.ext ?_ ?_
    · exact num_mapNum hr h _ 0 (int64 P.real) (fun t t' h => h)
    · exact num_mapNum hr h _ 0 (fun t => (valueint P.real t % 65536).toNat)
        (fun t t' h => by simp only [valueint_congr hr h])
  unfold fromTree
  simp only [h1, h2, h3, h4]

theorem filterMap_asStr_mapNum {r} (hr : Renum r) (l : List Json) :
    (mapNumL r l).filterMap asStr = l.filterMap asStr := by
  rw [mapNumL_map, List.filterMap_map]
  congr 1
  funext j
  exact asStr_mapNum hr j

theorem kinds_mapNum {r} (hr : Renum r) {l : List Json} (h : ∀ j ∈ l, Holds real r j) :
    ((mapNumL r l).filterMap asNum).map (valueint real) = (l.filterMap asNum).map (valueint real) := by
  induction l with
  | nil => rfl
  | cons j l ih =>
    have ih' := ih fun x hx => h x (by simp [hx])
    simp only [mapNumL, List.filterMap_cons]
    rcases asNum_mapNum hr (h j (by simp)) with ⟨h1, h2⟩ | ⟨t, t', h1, h2, h3⟩
    · rw [h1, h2]; exact ih'
    · rw [h1, h2]; simp only [List.map_cons, ih', valueint_congr hr h3]

theorem parseStrings_mapNum {r} (hr : Renum r) (j : Json) (k : Bytes) :
    parseStrings (Json.get (mapNum r j) k) = parseStrings (Json.get j k) := by
  unfold parseStrings
  rw [arr_mapNum hr]
  cases (Json.get j k).bind asArr with
  | none => rfl
  | some l => simp only [Option.map_some, filterMap_asStr_mapNum hr]; simp [mapNumL_map]

theorem parseStrings_some {r} (hr : Renum r) (j : Json) :
    parseStrings (some (mapNum r j)) = parseStrings (some j) := by
  unfold parseStrings
  simp only [Option.bind_some, asArr_mapNum hr]
  cases asArr j with
  | none => rfl
  | some l => simp only [Option.map_some, filterMap_asStr_mapNum hr]; simp [mapNumL_map]

theorem parseInts_mapNum {r} (hr : Renum r) {j : Json} (h : Holds real r j) (k : Bytes) :
    parseInts real (Json.get (mapNum r j) k) = parseInts real (Json.get j k) := by
  unfold parseInts
  rw [arr_mapNum hr]
  cases hg : (Json.get j k).bind asArr with
  | none => rfl
  | some l =>
    have hl : ∀ x ∈ l, Holds real r x := by
      cases hv : Json.get j k with
      | none => rw [hv] at hg; simp at hg
      | some v =>
        rw [hv] at hg
        have := holds_get h hv
        cases v with
        | arr l' =>
          simp only [Option.bind_some, asArr, Option.some.injEq] at hg
          subst hg
          simpa only [Holds, HoldsL_iff] using this
        | _ => simp [asArr] at hg
    simp only [Option.map_some, kinds_mapNum hr hl]; simp [mapNumL_map]

theorem parseGeneric_mapNum {r} (hr : Renum r) (m : List (Bytes × Json)) :
    parseGeneric (mapNumM r m) = parseGeneric m := by
  induction m with
  | nil => rfl
  | cons p m ih =>
    obtain ⟨k, v⟩ := p
    simp only [mapNumM]
    rw [parseGeneric, parseGeneric, ih, parseStrings_some hr]

theorem members_mapNum {r} (hr : Renum r) (j : Json) :
    members (mapNum r j) = mapNumM r (members j) := by
  cases j with
  | num t =>
    simp only [mapNum]
    rcases hr.shape t with h | ⟨t', h, _⟩ <;> rw [h] <;> rfl
  | _ => rfl

theorem ofTree_mapNum {r} (hr : Renum r) {j : Json} (h : Holds real r j) :
    ofTree real (mapNum r j) = ofTree real j := by
  unfold ofTree
  have ht : ∀ k, parseTime real (Json.get (mapNum r j) k) = parseTime real (Json.get j k) := by
    intro k; unfold parseTime
    exact num_mapNum hr h k 0 (int64 real) (fun t t' h => h)
  have hl : ∀ k, parseLimit real (Json.get (mapNum r j) k) = parseLimit real (Json.get j k) := by
    intro k; unfold parseLimit
    exact num_mapNum hr h k 0 (valueint real) (fun t t' h => valueint_congr hr h)
  have hs : ∀ k, parseSearch (Json.get (mapNum r j) k) = parseSearch (Json.get j k) := by
    intro k; unfold parseSearch; rw [str_mapNum hr]
  simp only [parseStrings_mapNum hr, parseInts_mapNum hr h, members_mapNum hr, parseGeneric_mapNum hr, ht, hl, hs]

/-! ## The parser never hits undefined behaviour -/

theorem addTags_noub (cfg) (l : List Json) : ∀ e, addTags cfg e l ≠ .ub := by
  induction l with
  | nil => intro e; simp [addTags]
  | cons j l ih =>
    intro e
    rw [addTags]
    split
    · split
      · exact ih _
      · simp
      · rename_i h; unfold addTag at h; split at h
        · simp at h
        · split at h <;> simp at h
    · exact ih _

theorem fromTree_noub (P : Plat) (cfg) (j : Json) : fromTree P cfg j ≠ .ub := by
  have h1 : ∀ k n old, hexField P j k n old ≠ .ub := by
    intro k n old; unfold hexField; split
    · simp
    · split <;> simp
  have h2 : contentField cfg j ≠ .ub := by
    unfold contentField; split
    · simp
    · split <;> simp
  have h3 : ∀ e, tagsField cfg j e ≠ .ub := by
    intro e; unfold tagsField; split
    · simp
    · split
      · simp
      · exact addTags_noub _ _ _
  unfold fromTree
  intro h
  simp only [Res.bind_eq_ub] at h
  simp [h1, h2, h3] at h

theorem parseStrings_noub (j) : parseStrings j ≠ .ub := by
  unfold parseStrings; split
  · simp
  · split <;> simp

theorem parseGeneric_noub (m) : parseGeneric m ≠ .ub := by
  induction m with
  | nil => simp [parseGeneric]
  | cons p m ih =>
    obtain ⟨k, v⟩ := p
    rw [parseGeneric]
    split
    · exact ih
    · intro h
      simp only [Res.bind_eq_ub] at h
      simp [parseStrings_noub, ih] at h

theorem ofTree_noub (real) (j : Json) : ofTree real j ≠ .ub := by
  have h1 : ∀ k, parseInts real k ≠ .ub := by
    intro k; unfold parseInts; split
    · simp
    · split <;> simp
  have h2 : ∀ k, parseSearch k ≠ .ub := by
    intro k; unfold parseSearch; split
    · simp
    · split <;> simp
  unfold ofTree
  intro h
  simp only [Res.bind_eq_ub] at h
  simp [parseStrings_noub, parseGeneric_noub, h1, h2] at h

theorem validate_noub (f) : (validate f).1 ≠ .ub := by
  unfold validate
  repeat' split
  all_goals simp

/-! ## Elements of a parsed document -/

/-- What is known about a subtree of a parsed document. -/
structure Fit (real : Bytes → Int) (r : Bytes → Json) (j : Json) : Prop where
  cstrs : CStrs j
  height : height j ≤ nestingLimit
  holds : Holds real r j

theorem fit_elem {real r l} (h : Fit real r (.arr l)) {j : Json} (hj : j ∈ l) : Fit real r j := by
  obtain ⟨h1, h2, h3⟩ := h
  simp only [CStrs, CStrsL_iff] at h1
  simp only [Holds, HoldsL_iff] at h3
  simp only [Json.height] at h2
  have := heightL_le hj
  exact ⟨h1 j hj, by omega, h3 j hj⟩

theorem parseFilter_reprint {P : Plat} {r} (hr : Renum r) {j : Json} (h : Fit P.real r j) :
    parseFilter P.real (reprint r j) (reprint r j).length = ofTree P.real j := by
  unfold parseFilter
  rw [show (if (reprint r j).length > 0 then (reprint r j).take (reprint r j).length else reprint r j) = reprint r j by
    simp]
  rw [parse_reprint hr h.cstrs h.height]
  exact ofTree_mapNum hr h.holds

theorem fromJson_reprint {P : Plat} {r} (hr : Renum r) (td fr cfg) {j : Json} (h : Fit P.real r j) :
    fromJson P (.cjson td fr) cfg (reprint r j) = fromTree P cfg j := by
  simp only [fromJson]
  rw [parse_reprint hr h.cstrs h.height]
  exact fromTree_mapNum hr cfg h.holds

theorem filterLoop_iff {P : Plat} {r} (hr : Renum r) (js : List Json) :
    ∀ fs, (∀ j ∈ js, Fit P.real r j) → (filterLoop P r js = .ok fs ↔ Filters P js fs) := by
  induction js with
  | nil =>
    intro fs _
    simp only [filterLoop, Res.ok.injEq]
    constructor
    · rintro rfl; exact .nil
    · rintro ⟨⟩; rfl
  | cons j js ih =>
    intro fs h
    have ih' := fun gs => ih gs fun x hx => h x (by simp [hx])
    rw [filterLoop, parseFilter_reprint hr (h j (by simp))]
    constructor
    · intro e
      obtain ⟨f, h1, e⟩ := Res.bind_eq_ok.1 e
      obtain ⟨u, h2, e⟩ := Res.bind_eq_ok.1 e
      obtain ⟨gs, h3, e⟩ := Res.bind_eq_ok.1 e
      cases e
      exact .cons h1 h2 ((ih' gs).1 h3)
    · intro e
      cases e with
      | cons h1 h2 h3 =>
        rw [h1, Res.bind_ok, h2, Res.bind_ok, (ih' _).2 h3]
        rfl

theorem _root_.Nostr.Msg.Spec.Filters.length {P js fs} (h : Filters P js fs) : fs.length = js.length := by
  induction h with
  | nil => rfl
  | cons _ _ _ ih => simp [ih]

theorem parseFilters_iff {P : Plat} {r} (hr : Renum r) {js : List Json} (h : ∀ j ∈ js, Fit P.real r j) (fs) :
    parseFilters P r js = .ok fs ↔ js.length ≤ 10 ∧ Filters P js fs := by
  unfold parseFilters
  by_cases h1 : js.length > 10
  · simp only [h1, if_true]; constructor
    · simp
    · intro h; omega
  · simp only [h1, if_false]
    by_cases h2 : js.length = 0
    · simp only [h2, if_true]
      cases js with
      | nil =>
        have := filterLoop_iff hr [] fs h
        rw [← this]
        simp [filterLoop]
      | cons => simp at h2
    · simp only [h2, if_false]
      rw [filterLoop_iff hr js fs h]
      constructor
      · intro h; exact ⟨by omega, h⟩
      · exact fun h => h.2

theorem subId_iff (s : Bytes) : RelayProto.validateSubId s = true ↔ SubId s :=
  (RelayProto.Props.C84_validators s).2.2

theorem idArg_iff (js : List Json) (id : Bytes) :
    idArg js = .ok id ↔ ∃ rest, js = .str id :: rest ∧ SubId id := by
  cases js with
  | nil => simp [idArg]
  | cons j rest =>
    cases j with
    | str s =>
      simp only [idArg, asStr]
      by_cases h : RelayProto.validateSubId s = true
      · have h' := (subId_iff s).1 h
        rw [if_pos h, List.take_of_length_le h'.1.2]
        simp only [Res.ok.injEq, List.cons.injEq, Json.str.injEq]
        constructor
        · rintro rfl; exact ⟨rest, ⟨rfl, rfl⟩, h'⟩
        · rintro ⟨_, ⟨h, _⟩, _⟩; exact h
      · rw [if_neg h]
        simp only [reduceCtorEq, List.cons.injEq, Json.str.injEq, false_iff]
        rintro ⟨_, ⟨rfl, _⟩, h2⟩
        exact h ((subId_iff s).2 h2)
    | _ => simp [idArg, asStr]

theorem eventArg_iff {P : Plat} {r} (hr : Renum r) (td fr cfg) {js : List Json} (h : ∀ j ∈ js, Fit P.real r j) (e) :
    eventArg P (.cjson td fr) r cfg js = .ok e ↔ ∃ j rest, js = j :: rest ∧ fromTree P cfg j = .ok e := by
  cases js with
  | nil => simp [eventArg]
  | cons j rest =>
    simp only [eventArg, fromJson_reprint hr td fr cfg (h j (by simp)), List.cons.injEq]
    constructor
    · intro hh
      split at hh
      · rename_i x hx
        cases hh
        exact ⟨j, rest, ⟨rfl, rfl⟩, hx⟩
      · simp at hh
      · simp at hh
    · rintro ⟨_, _, ⟨rfl, rfl⟩, hx⟩
      rw [hx]

end Nostr.Msg
