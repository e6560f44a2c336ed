import Verif.Filter.Lemmas

/-! # Property theorems: C23, C24, C25, C88 -/

namespace Nostr.Filter.Props
open Nostr Nostr.Event Nostr.Json Nostr.RelayProto Nostr.Filter Spec
open Nostr.Event.Props (note)

/-! ## C23 -/

/-- C23, soundness: a reported match satisfies every condition of the filter (times 0 = absent;
negative times, which the code ignores, excluded). -/
theorem C23_sound {f : Filter} {e : Event} (hs : 0 ≤ f.since) (hu : 0 ≤ f.until_)
    (h : matches_ f e = true) : Satisfies f e := by
  obtain ⟨h1, h2, h3, h4, h5, h6, h7, h8⟩ := (matches_iff f e).1 h
  exact ⟨h1, h2, h3, fun _ => h4 (by omega), fun _ => h5 (by omega), fun h => tagMatch_sound (h6 h),
    fun h => tagMatch_sound (h7 h), fun g hg => tagMatch_sound (h8 g hg)⟩

/-- C23 (part): for events carrying at most 256 tags of each name and filters without negative times, an
event matches iff it satisfies every condition present. -/
theorem C23_matches_partial {f : Filter} {e : Event} (hs : 0 ≤ f.since) (hu : 0 ≤ f.until_)
    (hn : ∀ name, (e.tags.filter fun t => t.head? == some name).length ≤ 256) :
    matches_ f e = true ↔ Satisfies f e := by
  refine ⟨C23_sound hs hu, fun h => (matches_iff f e).2 ?_⟩
  exact ⟨h.ids, h.authors, h.kinds, fun hp => h.since (by omega), fun hp => h.till (by omega),
    fun hp => tagMatch_complete (hn _) (h.eTags hp), fun hp => tagMatch_complete (hn _) (h.pTags hp),
    fun g hg => tagMatch_complete (hn _) (h.generic g hg)⟩

/-- A filter with conditions of every sort, matching `note`. -/
def sample : Filter :=
  ⟨[c!"0101"], [c!"abab", c!"ff"], [1, 7], [c!"00ff"], [], [(0x74, [c!"z", c!"a\"b"])], 1600000000, 1700000000,
    10, none⟩

example : matches_ sample note = true ∧ matches_ { sample with kinds := [2] } note = false ∧
    matches_ { sample with until_ := 1699999999 } note = false := by decide +kernel

/-- An event with 256 `t` tags before the one asked for. -/
def crowded : Event := { note with tags := List.replicate 256 [c!"t", c!"a"] ++ [[c!"t", c!"b"]] }

/-- C23 fails for an event's 257th tag of a name: it satisfies the filter but is not matched. -/
theorem C23_crowded_refuted : ∃ f e, Satisfies f e ∧ matches_ f e = false := by
  refine ⟨{ empty with generic := [(0x74, [c!"b"])] }, crowded, ?_, by decide +kernel⟩
  refine ⟨by simp [empty], by simp [empty], by simp [empty], by simp [empty], by simp [empty],
    by simp [empty], by simp [empty], ?_⟩
  intro g hg
  have : g = (0x74, [c!"b"]) := by simpa [empty] using hg
  subst this
  exact ⟨c!"b", by simp, [], List.mem_append_right _ List.mem_cons_self⟩

/-- C23 fails for a negative `until`: it is ignored. -/
theorem C23_negative_refuted : ∃ f e, ¬ Satisfies f e ∧ matches_ f e = true :=
  ⟨{ empty with until_ := -1 }, note, fun h => absurd (h.till (by decide)) (by decide), by decide⟩

/-- C23 with a search query: the callback decides on top of the plain match; without a callback a query
matches nothing. -/
theorem C23_search (f : Filter) (e : Event) (cb : Option (Bytes → Event → Bool)) :
    matchesWithSearch f e cb = true ↔ matches_ f e = true ∧
      ∀ q, f.search = some q → q ≠ [] → ∃ p, cb = some p ∧ p q e = true := by
  unfold matchesWithSearch
  cases hm : matches_ f e with
  | false => simp
  | true =>
    simp only [Bool.not_true, Bool.false_eq_true, if_false, true_and]
    cases hs : f.search with
    | none => simp
    | some q =>
      cases q with
      | nil => simp
      | cons c cs =>
        cases cb with
        | none => simp
        | some p => simp

/-! ## C24 -/

/-- C24: a filter list matches iff one of its filters does. -/
theorem C24_disjunction (fs : List Filter) (e : Event) :
    filtersMatch fs e = true ↔ ∃ f ∈ fs, matches_ f e = true := by
  simp [filtersMatch]

/-- C24: with search queries likewise. -/
theorem C24_disjunction_search (fs : List Filter) (e : Event) (cb : Option (Bytes → Event → Bool)) :
    filtersMatchWithSearch fs e cb = true ↔ ∃ f ∈ fs, matchesWithSearch f e cb = true := by
  simp [filtersMatchWithSearch]

theorem tagMatch_mono {e : Event} {name : Bytes} {a b : List Bytes} (h : ∀ v ∈ a, v ∈ b)
    (hm : tagMatch e name a = true) : tagMatch e name b = true := by
  unfold tagMatch at *
  rw [List.any_eq_true] at *
  obtain ⟨w, hw, h2⟩ := hm
  exact ⟨w, h w hw, h2⟩

/-- C24: adding a condition, or making one stricter, never lets more events through. -/
theorem C24_narrower {f g : Filter} (hn : Narrower f g) {e : Event} (h : matches_ g e = true) :
    matches_ f e = true := by
  rw [matches_iff] at *
  obtain ⟨h1, h2, h3, h4, h5, h6, h7, h8⟩ := h
  cases hn with
  | ids l hl =>
    refine ⟨fun hne => ?_, h2, h3, h4, h5, h6, h7, h8⟩
    rcases hl with hl | ⟨hl, hsub⟩
    · exact absurd hl hne
    · obtain ⟨p, hp, hpre⟩ := h1 hl; exact ⟨p, hsub p hp, hpre⟩
  | authors l hl =>
    refine ⟨h1, fun hne => ?_, h3, h4, h5, h6, h7, h8⟩
    rcases hl with hl | ⟨hl, hsub⟩
    · exact absurd hl hne
    · obtain ⟨p, hp, hpre⟩ := h2 hl; exact ⟨p, hsub p hp, hpre⟩
  | kinds l hl =>
    refine ⟨h1, h2, fun hne => ?_, h4, h5, h6, h7, h8⟩
    rcases hl with hl | ⟨hl, hsub⟩
    · exact absurd hl hne
    · exact hsub _ (h3 hl)
  | eTags l hl =>
    refine ⟨h1, h2, h3, h4, h5, fun hne => ?_, h7, h8⟩
    rcases hl with hl | ⟨hl, hsub⟩
    · exact absurd hl hne
    · exact tagMatch_mono hsub (h6 hl)
  | pTags l hl =>
    refine ⟨h1, h2, h3, h4, h5, h6, fun hne => ?_, h8⟩
    rcases hl with hl | ⟨hl, hsub⟩
    · exact absurd hl hne
    · exact tagMatch_mono hsub (h7 hl)
  | generic a b g hg =>
    refine ⟨h1, h2, h3, h4, h5, h6, h7, fun x hx => h8 x ?_⟩
    rw [hg] at hx
    simp only [List.mem_append, List.mem_cons] at hx ⊢
    rcases hx with hx | hx
    · exact .inl hx
    · exact .inr (.inr hx)
  | since t ht =>
    refine ⟨h1, h2, h3, fun hp => ?_, h5, h6, h7, h8⟩
    have := h4 (show t > 0 by omega)
    simp only at this
    omega
  | till t ht =>
    refine ⟨h1, h2, h3, h4, fun hp => ?_, h6, h7, h8⟩
    rcases ht with ht | ⟨ht, ht2⟩
    · omega
    · have := h5 ht
      simp only at this
      omega

example : Narrower sample { sample with pTags := [c!"aa"] } := .pTags _ (.inl rfl)
example : Narrower sample { sample with kinds := [7] } := .kinds _ (.inr (by decide))

/-! ## C25 -/

/-- C25 (part): for every well-formed document, each event matched by the parsed filter satisfies every
condition written in the document.  Missing: the malformed and ambiguous documents excluded by `DocOK`,
for which it fails (below). -/
theorem C25_no_widening_partial {real : Bytes → Int} {m : List (Bytes × Json)} {f : Filter} {e : Event}
    (hm : DocOK m) (hp : ofTree real (.obj m) = .ok f) (h : matches_ f e = true) :
    DocHolds (.obj m) e := by
  obtain ⟨h1, h2, h3, h4, h5, h6, h7, h8⟩ := (matches_iff f e).1 h
  obtain ⟨p1, p2, p3, p4, p5, p6, p7, p8⟩ := ofTree_ok hp
  refine ⟨m, rfl, ?_⟩
  rintro ⟨k, v⟩ hkv
  have hget := find_distinct hm.distinct hkv
  refine ⟨?_, ?_, ?_, ?_, ?_, ?_⟩
  · rintro rfl
    obtain ⟨l, s, rfl, hs⟩ := hm.strings _ _ hkv (.inl rfl)
    rw [hget] at p1
    have hne : f.ids ≠ [] := List.ne_nil_of_mem (parseStrings_ne hs p1)
    obtain ⟨p, hp, hpre⟩ := h1 hne
    obtain ⟨l', hl', hs'⟩ := parseStrings_ok p1 p hp
    simp only [Option.some.injEq, Json.arr.injEq] at hl'
    subst hl'
    exact ⟨l, p, rfl, hs', hpre⟩
  · rintro rfl
    obtain ⟨l, s, rfl, hs⟩ := hm.strings _ _ hkv (.inr (.inl rfl))
    rw [hget] at p2
    have hne : f.authors ≠ [] := List.ne_nil_of_mem (parseStrings_ne hs p2)
    obtain ⟨p, hp, hpre⟩ := h2 hne
    obtain ⟨l', hl', hs'⟩ := parseStrings_ok p2 p hp
    simp only [Option.some.injEq, Json.arr.injEq] at hl'
    subst hl'
    exact ⟨l, p, rfl, hs', hpre⟩
  · rintro rfl
    obtain ⟨l, rfl, hne, hl⟩ := hm.kinds v hkv
    rw [hget] at p3
    unfold parseInts at p3
    simp only [Option.bind_some, asArr] at p3
    split at p3
    · simp at p3
    · simp only [Res.ok.injEq] at p3
      have hk : f.kinds ≠ [] := by
        cases l with
        | nil => exact absurd rfl hne
        | cons j l =>
          obtain ⟨n, hj, -⟩ := hl j (by simp)
          subst hj
          rw [← p3]; simp [asNum]
      have := h3 hk
      rw [← p3] at this
      simp only [List.mem_map, List.mem_filterMap] at this
      obtain ⟨t, ⟨j, hj, ht⟩, hv⟩ := this
      obtain ⟨n, rfl, hn⟩ := hl j hj
      simp only [asNum, Option.some.injEq] at ht
      subst ht
      rw [valueint_decInt real hn] at hv
      subst hv
      rw [decInt_nat] at hj
      exact ⟨l, rfl, hj⟩
  · rintro rfl
    obtain ⟨n, rfl, hn, hb⟩ := hm.times _ _ hkv (.inl rfl)
    rw [hget] at p7
    have : f.since = n := by
      rw [p7]; unfold parseTime
      simp only [Option.bind_some, asNum]
      exact int64_decInt real (by omega)
    exact ⟨n, rfl, by have := h4 (by omega); omega⟩
  · rintro rfl
    obtain ⟨n, rfl, hn, hb⟩ := hm.times _ _ hkv (.inr rfl)
    rw [hget] at p8
    have : f.until_ = n := by
      rw [p8]; unfold parseTime
      simp only [Option.bind_some, asNum]
      exact int64_decInt real (by omega)
    exact ⟨n, rfl, by have := h5 (by omega); omega⟩
  · rintro c hc rfl
    by_cases he : c = 0x65
    · subst he
      obtain ⟨l, s, rfl, hs⟩ := hm.strings _ _ hkv (.inr (.inr (.inl rfl)))
      rw [show ([0x23, 0x65] : Bytes) = c!"#e" from rfl] at hget
      rw [hget] at p4
      have hne : f.eTags ≠ [] := List.ne_nil_of_mem (parseStrings_ne hs p4)
      obtain ⟨w, hw, ht⟩ := tagMatch_sound (h6 hne)
      obtain ⟨l', hl', hs'⟩ := parseStrings_ok p4 w hw
      simp only [Option.some.injEq, Json.arr.injEq] at hl'
      subst hl'
      exact ⟨l, w, rfl, hs', ht⟩
    by_cases hpp : c = 0x70
    · subst hpp
      obtain ⟨l, s, rfl, hs⟩ := hm.strings _ _ hkv (.inr (.inr (.inr rfl)))
      rw [show ([0x23, 0x70] : Bytes) = c!"#p" from rfl] at hget
      rw [hget] at p5
      have hne : f.pTags ≠ [] := List.ne_nil_of_mem (parseStrings_ne hs p5)
      obtain ⟨w, hw, ht⟩ := tagMatch_sound (h7 hne)
      obtain ⟨l', hl', hs'⟩ := parseStrings_ok p5 w hw
      simp only [Option.some.injEq, Json.arr.injEq] at hl'
      subst hl'
      exact ⟨l, w, rfl, hs', ht⟩
    obtain ⟨vs, hv1, hv2⟩ := parseGeneric_mem p6 hkv (genericLetter_iff.2 ⟨rfl, hc, he, hpp⟩)
    obtain ⟨w, hw, ht⟩ := tagMatch_sound (h8 _ hv2)
    obtain ⟨l', hl', hs'⟩ := parseStrings_ok hv1 w hw
    simp only [Option.some.injEq] at hl'
    exact ⟨l', w, hl', hs', ht⟩

/-- `{"ids":["0101",5],"kinds":[1],"until":1700000000,"#t":["a\"b"]}` as parsed. -/
def goodDoc : List (Bytes × Json) :=
  [(c!"ids", .arr [.str (c!"0101"), .num (c!"5")]), (c!"kinds", .arr [.num (c!"1")]),
    (c!"until", .num (c!"1700000000")), (c!"#t", .arr [.str (c!"a\"b")])]

example : DocOK goodDoc ∧ ∃ f, ofTree (fun _ => 0) (.obj goodDoc) = .ok f ∧ matches_ f note = true := by
  refine ⟨⟨by unfold goodDoc sameKey; decide +kernel, ?_, ?_, ?_⟩, _, rfl, by decide +kernel⟩
  · intro k v h hk
    simp only [goodDoc, List.mem_cons, Prod.mk.injEq, List.not_mem_nil, or_false] at h
    rcases h with ⟨rfl, rfl⟩ | ⟨rfl, rfl⟩ | ⟨rfl, rfl⟩ | ⟨rfl, rfl⟩
    · exact ⟨_, _, rfl, List.mem_cons_self⟩
    · simp at hk
    · simp at hk
    · exact ⟨_, _, rfl, List.mem_cons_self⟩
  · intro v h
    simp only [goodDoc, List.mem_cons, Prod.mk.injEq, List.not_mem_nil, or_false] at h
    rcases h with ⟨h, rfl⟩ | ⟨h, rfl⟩ | ⟨h, rfl⟩ | ⟨h, rfl⟩
    · simp at h
    · refine ⟨_, rfl, by simp, ?_⟩
      intro j hj
      simp only [List.mem_cons, List.not_mem_nil, or_false] at hj
      subst hj
      exact ⟨1, by decide, by decide⟩
    · simp at h
    · simp at h
  · intro k v h hk
    simp only [goodDoc, List.mem_cons, Prod.mk.injEq, List.not_mem_nil, or_false] at h
    rcases h with ⟨rfl, rfl⟩ | ⟨rfl, rfl⟩ | ⟨rfl, rfl⟩ | ⟨rfl, rfl⟩
    · simp at hk
    · simp at hk
    · exact ⟨1700000000, by decide, by decide, by decide⟩
    · simp at hk

/-- C25 fails: each of these documents is accepted and the resulting filter matches `note`, although
`note` satisfies none of them: an `ids` list that is empty, or all of whose entries are malformed; an
`until` of 0; a duplicate key; `#E` before `#e`; a document that is not an object at all. -/
theorem C25_widening_refuted (real : Bytes → Int) :
    ∀ doc ∈ [c!"{\"ids\":[]}", c!"{\"ids\":[5]}", c!"{\"authors\":\"ff\"}", c!"{\"until\":0}",
      c!"{\"kinds\":[1],\"kinds\":[2]}", c!"[1,2]"],
    ∃ root f, parse doc = some root ∧ parseFilter real doc 0 = .ok f ∧ matches_ f note = true ∧
      ¬ DocHolds root note := by
  intro doc hd
  simp only [List.mem_cons, List.not_mem_nil, or_false] at hd
  rcases hd with rfl | rfl | rfl | rfl | rfl | rfl
  · refine ⟨.obj [(c!"ids", .arr [])], empty, by decide +kernel, ?_, by decide +kernel, ?_⟩
    · unfold parseFilter
      rw [show parse _ = some (.obj [(c!"ids", .arr [])]) from by decide +kernel]
      rfl
    · rintro ⟨m, hm, h⟩
      simp only [Json.obj.injEq] at hm; subst hm
      obtain ⟨l, s, h1, h2, -⟩ := (h _ List.mem_cons_self).ids rfl
      simp only [Json.arr.injEq] at h1; subst h1; simp at h2
  · refine ⟨.obj [(c!"ids", .arr [.num (c!"5")])], empty, by decide +kernel, ?_, by decide +kernel, ?_⟩
    · unfold parseFilter
      rw [show parse _ = some (.obj [(c!"ids", .arr [.num (c!"5")])]) from by decide +kernel]
      rfl
    · rintro ⟨m, hm, h⟩
      simp only [Json.obj.injEq] at hm; subst hm
      obtain ⟨l, s, h1, h2, -⟩ := (h _ List.mem_cons_self).ids rfl
      simp only [Json.arr.injEq] at h1; subst h1; simp at h2
  · refine ⟨.obj [(c!"authors", .str (c!"ff"))], empty, by decide +kernel, ?_, by decide +kernel, ?_⟩
    · unfold parseFilter
      rw [show parse _ = some (.obj [(c!"authors", .str (c!"ff"))]) from by decide +kernel]
      rfl
    · rintro ⟨m, hm, h⟩
      simp only [Json.obj.injEq] at hm; subst hm
      obtain ⟨l, s, h1, h2, -⟩ := (h _ List.mem_cons_self).authors rfl
      simp at h1
  · refine ⟨.obj [(c!"until", .num (c!"0"))], empty, by decide +kernel, ?_, by decide +kernel, ?_⟩
    · unfold parseFilter
      rw [show parse _ = some (.obj [(c!"until", .num (c!"0"))]) from by decide +kernel]
      rfl
    · rintro ⟨m, hm, h⟩
      simp only [Json.obj.injEq] at hm; subst hm
      obtain ⟨n, h1, h2⟩ := (h _ List.mem_cons_self).till rfl
      simp only [Json.num.injEq] at h1
      have : n = 0 := Num.decInt_inj (h1.symm.trans (by decide))
      subst this
      exact absurd h2 (by decide)
  · refine ⟨.obj [(c!"kinds", .arr [.num (c!"1")]), (c!"kinds", .arr [.num (c!"2")])],
      { empty with kinds := [1] }, by decide +kernel, ?_, by decide +kernel, ?_⟩
    · unfold parseFilter
      rw [show parse _ = some (.obj [(c!"kinds", .arr [.num (c!"1")]), (c!"kinds", .arr [.num (c!"2")])])
        from by decide +kernel]
      rfl
    · rintro ⟨m, hm, h⟩
      simp only [Json.obj.injEq] at hm; subst hm
      obtain ⟨l, h1, h2⟩ := (h _ (List.mem_cons_of_mem _ List.mem_cons_self)).kinds rfl
      simp only [Json.arr.injEq] at h1; subst h1
      exact absurd h2 (by decide)
  · refine ⟨.arr [.num (c!"1"), .num (c!"2")], empty, by decide +kernel, ?_, by decide +kernel, ?_⟩
    · unfold parseFilter
      rw [show parse _ = some (.arr [.num (c!"1"), .num (c!"2")]) from by decide +kernel]
      rfl
    · rintro ⟨m, hm, h⟩
      simp at hm

/-- C25 fails for a document using both `#E` and `#e`: the lower-case condition is silently dropped. -/
theorem C25_case_refuted (real : Bytes → Int) : ∃ root f e, ofTree real root = .ok f ∧
    matches_ f e = true ∧ ¬ DocHolds root e := by
  refine ⟨.obj [(c!"#E", .arr [.str (c!"a")]), (c!"#e", .arr [.str (c!"b")])],
    { empty with eTags := [c!"a"], generic := [(0x45, [c!"a"])] },
    { note with tags := [[c!"e", c!"a"], [c!"E", c!"a"]] }, rfl, by decide +kernel, ?_⟩
  rintro ⟨m, hm, h⟩
  simp only [Json.obj.injEq] at hm; subst hm
  obtain ⟨l, s, h1, h2, m, h3⟩ :=
    (h _ (List.mem_cons_of_mem _ List.mem_cons_self)).tag 0x65 (by unfold Letter; decide) rfl
  simp only [Json.arr.injEq] at h1; subst h1
  simp only [List.mem_singleton, Json.str.injEq] at h2
  subst h2
  simp at h3

/-! ## C88: validated filters -/

/-- C88: validation accepts exactly the filters whose id and author prefixes are 1 to 64 lower-case hex
digits, whose `#e`/`#p` values are 64 and whose search text has at most 65536 bytes. -/
theorem C88_validate (f : Filter) : (validate f).1 = .ok () ↔
    (∀ p ∈ f.ids ++ f.authors, validateHexPrefix p = true) ∧
    (∀ v ∈ f.eTags ++ f.pTags, validateHex64 v = true) ∧ ∀ s, f.search = some s → s.length ≤ 65536 := by
  unfold validate
  simp only [List.mem_append]
  by_cases h1 : f.ids.all validateHexPrefix = true
  · by_cases h2 : f.authors.all validateHexPrefix = true
    · by_cases h3 : f.eTags.all validateHex64 = true
      · by_cases h4 : f.pTags.all validateHex64 = true
        · simp only [h1, h2, h3, h4, Bool.not_true, Bool.false_eq_true, if_false]
          have a1 : ∀ p, p ∈ f.ids ∨ p ∈ f.authors → validateHexPrefix p = true := by
            rintro p (h | h)
            · exact List.all_eq_true.1 h1 p h
            · exact List.all_eq_true.1 h2 p h
          have a2 : ∀ p, p ∈ f.eTags ∨ p ∈ f.pTags → validateHex64 p = true := by
            rintro p (h | h)
            · exact List.all_eq_true.1 h3 p h
            · exact List.all_eq_true.1 h4 p h
          refine Iff.trans ?_ ⟨fun h => ⟨a1, a2, h⟩, fun h => h.2.2⟩
          cases f.search with
          | none => simp
          | some s =>
            simp only [Option.any_some, decide_eq_true_eq, Option.some.injEq, forall_eq']
            split
            · simp; omega
            · simp; omega
        · have h4' : f.pTags.all validateHex64 = false := by simpa using h4
          simp only [h1, h2, h3, h4', Bool.not_true, Bool.not_false, Bool.false_eq_true, if_false, if_true,
            reduceCtorEq, false_iff]
          rintro ⟨-, h, -⟩
          exact h4 (List.all_eq_true.2 fun p hp => h p (.inr hp))
      · have h3' : f.eTags.all validateHex64 = false := by simpa using h3
        simp only [h1, h2, h3', Bool.not_true, Bool.not_false, Bool.false_eq_true, if_false, if_true,
          reduceCtorEq, false_iff]
        rintro ⟨-, h, -⟩
        exact h3 (List.all_eq_true.2 fun p hp => h p (.inl hp))
    · have h2' : f.authors.all validateHexPrefix = false := by simpa using h2
      simp only [h1, h2', Bool.not_true, Bool.not_false, Bool.false_eq_true, if_false, if_true,
        reduceCtorEq, false_iff]
      rintro ⟨h, -, -⟩
      exact h2 (List.all_eq_true.2 fun p hp => h p (.inr hp))
  · have h1' : f.ids.all validateHexPrefix = false := by simpa using h1
    simp only [h1', Bool.not_false, if_true, reduceCtorEq, false_iff]
    rintro ⟨h, -, -⟩
    exact h1 (List.all_eq_true.2 fun p hp => h p (.inl hp))

example : (validate { sample with eTags := [] }).1 = .ok () ∧ (validate sample) =
    (.err (.relay .invalidId), c!"#e") := by decide

end Nostr.Filter.Props
