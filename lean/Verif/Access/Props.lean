import Verif.Access.Spec
import Verif.Filter.Props

/-! # Property theorems: C167–C170 -/

namespace Nostr.Access.Props
open Nostr Nostr.Json Nostr.Event Nostr.RelayProto Nostr.Filter Nostr.Access Nostr.Access.Spec
open Nostr.Filter.Spec (HasTag)

/-! ## C167: tags -/

theorem addTag_tags {cfg : Option Config.Config} {e e' : Event} {vs : List Bytes} (h : addTag cfg e vs = .ok e') :
    vs ≠ [] ∧ e'.tags = e.tags ++ [vs] := by
  unfold addTag at h
  split at h
  · cases h
  next hv =>
    split at h
    · cases h
    · injection h with h; subst h; exact ⟨hv, rfl⟩

theorem addTags_ne {cfg : Option Config.Config} : ∀ {js : List Json} {e e' : Event}, (∀ t ∈ e.tags, t ≠ []) → addTags cfg e js = .ok e' →
    ∀ t ∈ e'.tags, t ≠ []
  | [], e, e', he, h => by unfold addTags at h; injection h with h; subst h; exact he
  | j :: js, e, e', he, h => by
    unfold addTags at h
    split at h
    · split at h
      · next v vs _ e1 h1 =>
        obtain ⟨hn, ht⟩ := addTag_tags h1
        refine addTags_ne ?_ h
        intro t hm
        rw [ht, List.mem_append, List.mem_singleton] at hm
        rcases hm with hm | rfl
        · exact he t hm
        · exact hn
      · cases h
      · cases h
    · exact addTags_ne he h

theorem fromJson_ne {P : Plat} {b : Build} {cfg : Option Config.Config} {s : Bytes} {e : Event} (h : fromJson P b cfg s = .ok e) :
    ∀ t ∈ e.tags, t ≠ [] := by
  unfold fromJson at h
  cases b with
  | plain => cases h
  | cjson td fr =>
    simp only at h
    split at h
    · cases h
    · next root _ =>
      unfold fromTree at h
      cases h1 : hexField P root (c!"id") 32 zero.id with
      | err x => rw [h1] at h; cases h
      | ub => rw [h1] at h; cases h
      | ok id =>
        rw [h1, Res.bind_ok] at h
        cases h2 : hexField P root (c!"pubkey") 32 zero.pubkey with
        | err x => rw [h2] at h; cases h
        | ub => rw [h2] at h; cases h
        | ok pk =>
          rw [h2, Res.bind_ok] at h
          cases h3 : contentField cfg root with
          | err x => rw [h3] at h; cases h
          | ub => rw [h3] at h; cases h
          | ok ct =>
            rw [h3, Res.bind_ok] at h
            cases h4 : tagsField cfg root ⟨id, pk, (numFields P root).1, (numFields P root).2, [], ct, zero.sig⟩ with
            | err x => rw [h4] at h; cases h
            | ub => rw [h4] at h; cases h
            | ok e1 =>
              rw [h4, Res.bind_ok] at h
              have hn : ∀ t ∈ e1.tags, t ≠ [] := by
                unfold tagsField at h4
                split at h4
                · injection h4 with h4; subst h4; simp
                · split at h4
                  · cases h4
                  · exact addTags_ne (by simp) h4
              cases h5 : hexField P root (c!"sig") 64 zero.sig with
              | err x => rw [h5] at h; cases h
              | ub => rw [h5] at h; cases h
              | ok sg =>
                rw [h5, Res.bind_ok] at h
                injection h with h
                subst h
                exact hn

theorem made_ne {e : Event} (h : Made e) : ∀ t ∈ e.tags, t ≠ [] := by
  induction h with
  | created e h => simp [h]
  | tagged _ ha ih =>
    obtain ⟨hn, ht⟩ := addTag_tags ha
    intro t hm
    rw [ht, List.mem_append, List.mem_singleton] at hm
    rcases hm with hm | rfl
    · exact ih t hm
    · exact hn
  | read h => exact fromJson_ne h
  | changed _ ht ih => rw [ht]; exact ih

theorem at_eq (e : Event) (i : Nat) : tagAt e i = e.tags[i]? := by
  unfold tagAt
  split
  · next h => rw [List.getElem?_eq_none h]
  · rfl

/-- C167: by index every tag and every value is reached, in order, and nothing beyond the counts. -/
theorem C167_index (e : Event) :
    (List.range (tagCount e)).map (tagAt e) = e.tags.map some ∧ (∀ i, i ≥ tagCount e → tagAt e i = none) ∧
    (∀ i, getTag e i = tagAt e i) ∧
    (∀ t : List Bytes, (List.range (valueCount t)).map (valueAt t) = t.map some ∧ (∀ i, i ≥ valueCount t → valueAt t i = none) ∧
      tagName t = valueAt t 0) := by
  refine ⟨?_, ?_, fun i => rfl, ?_⟩
  · apply List.ext_getElem? 
    intro i
    simp only [tagCount, List.getElem?_map, List.getElem?_range', at_eq]
    by_cases h : i < e.tags.length
    · simp [h, at_eq]
    · simp [h]
  · intro i h
    exact if_pos h
  · intro t
    refine ⟨?_, fun i h => if_pos h, ?_⟩
    · apply List.ext_getElem?
      intro i
      by_cases h : i < t.length
      · simp [valueCount, valueAt, h]
      · simp [valueCount, h]
    · unfold tagName valueAt
      by_cases h : t.length = 0
      · simp [h]
      · rw [if_neg h, if_neg (by omega)]

theorem find_some {name : Bytes} : ∀ {tags : List (List Bytes)} {t : List Bytes}, findTag name tags = some t ↔ First tags name t
  | [], t => by simp [findTag, First]
  | u :: us, t => by
    have ih := find_some (name := name) (tags := us) (t := t)
    have key : u.head? ≠ some name → (First (u :: us) name t ↔ First us name t) := by
      intro hu
      constructor
      · rintro ⟨pre, post, h1, h2, h3⟩
        cases pre with
        | nil => simp only [List.nil_append, List.cons.injEq] at h1; exact absurd (h1.1 ▸ h2) hu
        | cons a pre =>
          simp only [List.cons_append, List.cons.injEq] at h1
          exact ⟨pre, post, h1.2, h2, fun x hx => h3 x (List.mem_cons_of_mem _ hx)⟩
      · rintro ⟨pre, post, h1, h2, h3⟩
        refine ⟨u :: pre, post, by rw [h1]; rfl, h2, ?_⟩
        intro x hx
        rcases List.mem_cons.1 hx with rfl | hx
        · exact hu
        · exact h3 x hx
    cases u with
    | nil => rw [findTag, key (by simp)]; exact ih
    | cons n vs =>
      rw [findTag]
      by_cases hn : n = name
      · rw [if_pos hn]
        constructor
        · intro h
          injection h with h
          exact ⟨[], us, by rw [← h]; rfl, by rw [← h, hn]; rfl, by simp⟩
        · rintro ⟨pre, post, h1, h2, h3⟩
          cases pre with
          | nil => simp only [List.nil_append, List.cons.injEq] at h1; rw [h1.1]
          | cons a pre =>
            simp only [List.cons_append, List.cons.injEq] at h1
            exact absurd (by rw [← h1.1, hn]; rfl) (h3 a List.mem_cons_self)
      · rw [if_neg hn, key (by simpa using hn)]; exact ih

theorem has_find {name : Bytes} : ∀ {tags : List (List Bytes)}, hasTag name tags = (findTag name tags).isSome
  | [] => rfl
  | [] :: us => by simp only [hasTag, findTag]; exact has_find
  | (n :: vs) :: us => by
    simp only [hasTag, findTag]
    split
    · rfl
    · exact has_find

/-- C167: by name the first tag of that name is found, and it is reported as present exactly if there is one. -/
theorem C167_name (e : Event) (name : Bytes) :
    (∀ t, findTag name e.tags = some t ↔ First e.tags name t) ∧
    (findTag name e.tags = none ↔ ∀ t ∈ e.tags, t.head? ≠ some name) ∧
    (hasTag name e.tags = true ↔ ∃ t ∈ e.tags, t.head? = some name) := by
  have hnone : ∀ tags : List (List Bytes), findTag name tags = none ↔ ∀ t ∈ tags, t.head? ≠ some name := by
    intro tags
    induction tags with
    | nil => simp [findTag]
    | cons u us ih =>
      cases u with
      | nil => simp [findTag, ih]
      | cons n vs =>
        simp only [findTag]
        by_cases hn : n = name
        · simp [hn]
        · simp [hn, ih]
  refine ⟨fun t => find_some, hnone _, ?_⟩
  rw [has_find]
  have := hnone e.tags
  cases h : findTag name e.tags with
  | none => simpa using this.1 h
  | some t =>
    obtain ⟨pre, post, h1, h2, _⟩ := find_some.1 h
    simp only [Option.isSome_some, true_iff]
    exact ⟨t, by rw [h1]; simp, h2⟩

/-- Calls of `nostr_tag_iterator_next_info`, as many as wanted. -/
def infos : Nat → Iter → List (Option Info)
  | 0, _ => []
  | n + 1, it => (nextInfo it).1 :: infos n (nextInfo it).2

theorem infos_at {e : Event} (he : ∀ t ∈ e.tags, t ≠ []) : ∀ (n i : Nat),
    infos n ⟨e, i⟩ = (List.range' i n).map fun k => (e.tags[k]?).map fun t => ⟨t.headD [], t.tail⟩
  | 0, i => rfl
  | n + 1, i => by
    rw [infos, List.range'_succ, List.map_cons]
    cases h : e.tags[i]? with
    | none =>
      have hl : e.tags.length ≤ i := by simpa using h
      have hx : nextInfo ⟨e, i⟩ = (none, ⟨e, i⟩) := by simp [nextInfo, Iter.next, h]
      rw [hx, infos_at he n i]
      congr 1
      apply List.ext_getElem?
      intro k
      by_cases hk : k < n
      · have a1 : e.tags.length ≤ i + k := by omega
        have a2 : e.tags.length ≤ i + 1 + k := by omega
        simp [hk, a1, a2]
      · simp [hk]
    | some t =>
      have ht : t ≠ [] := he t (List.mem_of_getElem? h)
      cases t with
      | nil => exact absurd rfl ht
      | cons m vs =>
        have hx : nextInfo ⟨e, i⟩ = (some ⟨m, vs⟩, ⟨e, i + 1⟩) := by
          simp only [nextInfo, Iter.next, h]
          split
          · rfl
          · have : vs = [] := List.length_eq_zero_iff.1 (by omega)
            rw [this]
        rw [hx, infos_at he n (i + 1)]
        rfl

/-- C167: the calls that iterate with names and values give every tag of an event once, in order, its name apart from
its values, and then report the end for ever. -/
theorem C167_iteration {e : Event} (he : Made e) (n : Nat) :
    infos n (Iter.init e) = (List.range n).map fun k => (tagAt e k).map fun t => ⟨t.headD [], t.tail⟩ := by
  rw [Iter.init, infos_at (made_ne he), List.range_eq_range']
  simp only [at_eq]

/-! The lower-case hexadecimal accessors. -/

theorem hexEncode_cons (b : UInt8) (bs : Bytes) : Hex.hexEncode (b :: bs) = Hex.hexEncode [b] ++ Hex.hexEncode bs := by
  simp [Hex.hexEncode]

theorem hexEncode_length (bs : Bytes) : (Hex.hexEncode bs).length = bs.length * 2 := by
  induction bs with
  | nil => rfl
  | cons b bs ih => rw [hexEncode_cons, List.length_append, ih]; simp [Hex.hexEncode]; omega

theorem hexLoop_eq : ∀ (bs pre out : Bytes), pre.length + bs.length = 32 → (∃ rest, out = Hex.hexEncode pre ++ rest) → 65 ≤ out.length →
    hexLoop pre.length out bs = Hex.hexEncode (pre ++ bs) ++ [0] ++ out.drop 65
  | [], pre, out, hl, ⟨rest, ho⟩, h65 => by
    have := hexEncode_length pre
    simp only [List.length_nil, Nat.add_zero] at hl
    rw [hexLoop, List.append_nil]
    congr 2
    rw [ho, List.take_left' (by omega)]
  | b :: bs, pre, out, hl, ⟨rest, ho⟩, h65 => by
    have hp := hexEncode_length pre
    have hb := hexEncode_length [b]
    simp only [List.length_cons, List.length_nil] at hl hb
    have e1 : out.take (pre.length * 2) = Hex.hexEncode pre := by rw [ho, List.take_left' hp]
    have e2 : Hex.hexEncode (pre ++ [b]) = Hex.hexEncode pre ++ Hex.hexEncode [b] := by simp [Hex.hexEncode]
    rw [hexLoop, e1]
    have ih := hexLoop_eq bs (pre ++ [b]) (Hex.hexEncode pre ++ (Hex.hexEncode [b] ++ [0]) ++ out.drop (pre.length * 2 + 3))
      (by simp; omega) ⟨[0] ++ out.drop (pre.length * 2 + 3), by rw [e2]; simp⟩ (by simp [hp, hb]; omega)
    simp only [List.length_append, List.length_cons, List.length_nil, Nat.zero_add] at ih
    rw [ih, List.append_assoc pre [b] bs, List.singleton_append]
    congr 1
    rw [List.drop_append, List.drop_eq_nil_of_le (by simp [hp, hb]; omega), List.nil_append, List.drop_drop]
    congr 1
    simp [hp, hb]; omega

/-- C167: the hexadecimal id and public key are the 64 lower-case digits and their end, and nothing else of the buffer is
written. -/
theorem C167_hex {e : Event} {out : Bytes} (h1 : e.id.length = 32) (h2 : e.pubkey.length = 32) (ho : 65 ≤ out.length) :
    idHex e out = Hex.Spec.hexText e.id ++ [0] ++ out.drop 65 ∧ pubkeyHex e out = Hex.Spec.hexText e.pubkey ++ [0] ++ out.drop 65 :=
  ⟨by simpa [idHex, Hex.hexEncode_eq] using hexLoop_eq e.id [] out (by simpa using h1) ⟨out, rfl⟩ ho,
    by simpa [pubkeyHex, Hex.hexEncode_eq] using hexLoop_eq e.pubkey [] out (by simpa using h2) ⟨out, rfl⟩ ho⟩

/-- An event built by two calls. -/
def two : Event := { zero with tags := [[c!"t", c!"a"], [c!"d"], [c!"t", c!"b", c!"c"]] }

theorem two_made : Made two := .tagged (cfg := none) (vs := [c!"t", c!"b", c!"c"])
  (.tagged (cfg := none) (vs := [c!"d"]) (.tagged (cfg := none) (vs := [c!"t", c!"a"]) (.created zero rfl) rfl) rfl) rfl

example : infos 4 (Iter.init two) =
    [some ⟨c!"t", [c!"a"]⟩, some ⟨c!"d", []⟩, some ⟨c!"t", [c!"b", c!"c"]⟩, none] := by
  rw [C167_iteration two_made]; decide

example : First two.tags c!"t" [c!"t", c!"a"] ∧ findTag c!"d" two.tags = some [c!"d"] ∧ dTag two = none :=
  ⟨(C167_name two c!"t").1 _ |>.1 rfl, rfl, rfl⟩

/-! ## C168: filters -/

/-- What the accessors say about a filter. -/
def plan (f : Filter) : Plan := ⟨getIds f, getAuthors f, getKinds f, getSince f, getUntil f, getTagValues f⟩

theorem generic_mem {c : UInt8} : ∀ {gs : List (UInt8 × List Bytes)}, genericValues c gs ≠ [] → (c, genericValues c gs) ∈ gs
  | [], h => absurd rfl h
  | g :: gs, h => by
    unfold genericValues at h ⊢
    by_cases hg : g.1 = c
    · simp only [hg, if_true]
      exact List.mem_cons.2 (.inl (by rw [← hg]))
    · simp only [hg, if_false] at h ⊢
      exact List.mem_cons_of_mem _ (generic_mem h)

theorem generic_of {g : UInt8 × List Bytes} : ∀ {gs : List (UInt8 × List Bytes)}, (gs.map Prod.fst).Nodup → g ∈ gs → genericValues g.1 gs = g.2
  | [], _, h => by cases h
  | a :: gs, hd, h => by
    rw [List.map_cons, List.nodup_cons] at hd
    unfold genericValues
    rcases List.mem_cons.1 h with rfl | h
    · simp
    · have : a.1 ≠ g.1 := fun he => hd.1 (he ▸ List.mem_map_of_mem h)
      rw [if_neg this]
      exact generic_of hd.2 h

/-- C168: a query planned from what the accessors report misses no matching event. -/
theorem C168_complete {f : Filter} {e : Event} (h : matches_ f e = true) : (plan f).Selects e := by
  obtain ⟨h1, h2, h3, h4, h5, h6, h7, h8⟩ := (Filter.matches_iff f e).1 h
  refine ⟨h1, h2, h3, fun hp => h4 hp, fun hp => h5 hp, ?_⟩
  intro c hc
  simp only [plan, getTagValues] at hc ⊢
  by_cases e1 : c = 0x65
  · subst e1
    simp only [if_true] at hc ⊢
    exact Filter.tagMatch_sound (h6 hc)
  · by_cases e2 : c = 0x70
    · subst e2
      simp only [e1, if_true, if_false] at hc ⊢
      exact Filter.tagMatch_sound (h7 hc)
    · simp only [e1, e2, if_false] at hc ⊢
      exact Filter.tagMatch_sound (h8 _ (generic_mem hc))

/-- C168 (part): it finds nothing else either, for filters with one condition for a letter, each listing some value, and events
with at most 256 tags of a name (C23). Missing: repeated letters and empty conditions, for which it fails (below). -/
theorem C168_exact_partial {f : Filter} {e : Event} (hf : Plain f) (hn : ∀ name, (e.tags.filter fun t => t.head? == some name).length ≤ 256) :
    matches_ f e = true ↔ (plan f).Selects e := by
  refine ⟨C168_complete, fun h => (Filter.matches_iff f e).2 ?_⟩
  refine ⟨h.ids, h.authors, h.kinds, h.since, h.till, fun hp => Filter.tagMatch_complete (hn _) (h.tags 0x65 hp), ?_, ?_⟩
  · intro hp
    refine Filter.tagMatch_complete (hn _) ?_
    have := h.tags 0x70
    exact this hp
  · intro g hg
    obtain ⟨g1, g2, g3⟩ := hf.2 g hg
    refine Filter.tagMatch_complete (hn _) ?_
    have := h.tags g.1
    simp only [plan, getTagValues, g1, g2, if_false, generic_of hf.1 hg] at this
    exact this g3

/-- C168 fails for a filter document that names a letter twice: only the first condition is reported, and the planned query finds
events that do not match. -/
theorem C168_repeated_refuted : ∃ f e, Filter.parseFilter (fun _ => 0) c!"{\"#t\":[\"a\"],\"#t\":[\"b\"]}" 0 = .ok f ∧
    (plan f).Selects e ∧ matches_ f e = false := by
  refine ⟨{ empty with generic := [(0x74, [c!"a"]), (0x74, [c!"b"])] }, { zero with tags := [[c!"t", c!"a"]] }, by decide +kernel, ?_, by decide⟩
  refine ⟨by simp [plan, getIds, empty], by simp [plan, getAuthors, empty], by simp [plan, getKinds, empty],
    by simp [plan, getSince, empty], by simp [plan, getUntil, empty], ?_⟩
  intro c hc
  have : c = 0x74 := by
    by_cases h : c = 0x74
    · exact h
    · exfalso; apply hc
      have h' : ¬ 0x74 = c := fun x => h x.symm
      simp [plan, getTagValues, getETags, getPTags, genericValues, empty, h']
  subst this
  exact ⟨c!"a", by decide, [], by decide⟩

/-- C168 fails for an empty condition: no event matches, but the accessors report no value, as if there were no condition. -/
theorem C168_empty_refuted : ∃ f e, Filter.parseFilter (fun _ => 0) c!"{\"#t\":[]}" 0 = .ok f ∧ (∀ c, getTagValues f c = []) ∧
    (plan f).Selects e ∧ (∀ e, matches_ f e = false) := by
  refine ⟨{ empty with generic := [(0x74, [])] }, two, by decide +kernel, ?_, ?_, ?_⟩
  · intro c
    simp only [getTagValues, getETags, getPTags, genericValues, empty]
    repeat' split
    all_goals rfl
  · refine ⟨by simp [plan, getIds, empty], by simp [plan, getAuthors, empty], by simp [plan, getKinds, empty],
      by simp [plan, getSince, empty], by simp [plan, getUntil, empty], ?_⟩
    intro c hc
    exfalso; apply hc
    simp only [plan, getTagValues, getETags, getPTags, genericValues, empty]
    repeat' split
    all_goals rfl
  · intro e
    simp [matches_, empty, tagMatch]

/-- C168: if no tag condition is reported, tags play no role; if one is, some letter lists a value, unless the condition is empty. -/
theorem C168_tags {f : Filter} :
    (hasTagFilters f = false → (∀ c, getTagValues f c = []) ∧ ∀ e ts, matches_ f { e with tags := ts } = matches_ f e) ∧
    (Plain f → hasTagFilters f = true → ∃ c, getTagValues f c ≠ []) := by
  constructor
  · intro h
    simp only [hasTagFilters, Bool.or_eq_false_iff, decide_eq_false_iff_not, Nat.not_lt, Nat.le_zero, List.length_eq_zero_iff] at h
    obtain ⟨⟨h1, h2⟩, h3⟩ := h
    constructor
    · intro c
      simp only [getTagValues, getETags, getPTags, h1, h2, h3, genericValues]
      repeat' split
      all_goals rfl
    · intro e ts
      simp [matches_, h1, h2, h3]
  · intro hf h
    simp only [hasTagFilters, Bool.or_eq_true, decide_eq_true_eq] at h
    rcases h with (h | h) | h
    · exact ⟨0x65, by simpa [getTagValues, getETags] using List.length_pos_iff.1 h⟩
    · exact ⟨0x70, by simpa [getTagValues, getPTags] using List.length_pos_iff.1 h⟩
    · obtain ⟨g, hg⟩ := List.exists_mem_of_length_pos h
      obtain ⟨g1, g2, g3⟩ := hf.2 g hg
      exact ⟨g.1, by simpa [getTagValues, g1, g2, generic_of hf.1 hg] using g3⟩

/-- C168: a query text is reported exactly if the search callback is needed: without one the callback is never asked, and with
one nothing matches unless it agrees to the reported text. -/
theorem C168_search {f : Filter} (e : Event) (cb : Option (Bytes → Event → Bool)) :
    (hasSearch f = false → matchesWithSearch f e cb = matches_ f e) ∧
    (hasSearch f = true → ∃ q, getSearch f = some q ∧ q ≠ [] ∧ (matchesWithSearch f e cb = true ↔ matches_ f e = true ∧ ∃ p, cb = some p ∧ p q e = true)) := by
  have key := Filter.Props.C23_search f e cb
  unfold hasSearch getSearch
  cases hs : f.search with
  | none =>
    refine ⟨fun _ => ?_, by simp⟩
    rw [Bool.eq_iff_iff, key]
    simp [hs]
  | some q =>
    by_cases hq : q = []
    · subst hq
      refine ⟨fun _ => ?_, by simp⟩
      rw [Bool.eq_iff_iff, key]
      simp [hs]
    · refine ⟨by simp [hq], fun _ => ⟨q, rfl, hq, ?_⟩⟩
      rw [key, hs]
      constructor
      · exact fun h => ⟨h.1, h.2 q rfl hq⟩
      · rintro ⟨h1, h2⟩
        exact ⟨h1, fun q' hq' _ => by injection hq' with hq'; subst hq'; exact h2⟩

/-- A filter with two tag conditions and a search text. -/
def asked : Filter := { empty with generic := [(0x74, [c!"a", c!"z"]), (0x64, [c!"x"])], eTags := [c!"00"], search := some c!"q" }

example : Plain asked ∧ getTagValues asked 0x74 = [c!"a", c!"z"] ∧ getTagValues asked 0x65 = [c!"00"] ∧ getTagValues asked 0x70 = [] ∧
    hasTagFilters asked = true ∧ hasSearch asked = true := by
  refine ⟨⟨by decide, ?_⟩, by decide⟩
  intro g hg
  simp only [asked, List.mem_cons, List.not_mem_nil, or_false] at hg
  rcases hg with rfl | rfl <;> decide

/-! ## C169: reports of a failed validation -/

theorem cstr_holds {n : Nat} {a t : Bytes} (h : Holds n a t) : cstr a = some t := by
  obtain ⟨h, h0, rest, rfl⟩ := h
  unfold cstr
  rw [if_pos (by simp), List.takeWhile_append]
  have : t.takeWhile (· != 0) = t := by
    clear h
    induction t with
    | nil => rfl
    | cons c t ih =>
      simp only [List.mem_cons, not_or] at h0
      rw [List.takeWhile_cons, if_pos (by simpa using fun hc => h0.1 hc.symm), ih h0.2]
  rw [this, if_pos rfl]
  simp

theorem holds_unique {n : Nat} {a t u : Bytes} (h : Holds n a t) (h' : Holds n a u) : t = u := by
  have := cstr_holds h
  rw [cstr_holds h'] at this
  exact (Option.some.inj this).symm

theorem strncpy_holds {n k : Nat} {a s : Bytes} (ha : a.length = n) (hs : 0 ∉ s) (hl : s.length < k) (hk : k ≤ n) : Holds n (strncpy a s k) s := by
  refine ⟨by simp [strncpy, ha]; omega, hs, List.replicate (k - s.length - 1) 0 ++ a.drop k, ?_⟩
  unfold strncpy
  have : k - s.length = (k - s.length - 1) + 1 := by omega
  rw [List.take_of_length_le (by omega), this, List.replicate_succ]
  simp

theorem clear_holds {n : Nat} {a : Bytes} (ha : a.length = n) (hn : 0 < n) : Holds n (clear a) [] :=
  ⟨by simp [clear, ha]; omega, by simp, a.drop 1, rfl⟩

theorem snprintf_holds {buf text : Bytes} (hb : buf.length ≠ 0) (ht : 0 ∉ text) :
    Holds buf.length (snprintf buf text) (text.take (buf.length - 1)) := by
  refine ⟨?_, fun h => ht (List.mem_of_mem_take h), _, by rw [snprintf]; simp; rfl⟩
  simp only [snprintf, List.length_append, List.length_take, List.length_cons, List.length_nil, List.length_drop]
  omega

/-- C169: formatting a result whose two texts have an end. The whole sentence is written, with its length as the answer, if it
fits; otherwise its beginning, with the answer 0. In both cases the buffer holds a text with an end and is not exceeded. -/
theorem C169_format {r : Result} {m fl buf : Bytes} (hm : Holds 256 r.message m) (hf : Holds 64 r.field fl) (hb : buf.length ≠ 0) :
    ∃ n out, format r buf = .ok (n, out) ∧ Holds buf.length out ((sentence m fl).take (buf.length - 1)) ∧
      n = if (sentence m fl).length < buf.length then (sentence m fl).length else 0 := by
  have hm0 := hm.2.1
  have hf0 := hf.2.1
  have hz : 0 ∉ sentence m fl := by
    unfold sentence
    split
    · simp only [List.mem_append, not_or]; exact ⟨by decide, hm0⟩
    · simp only [List.mem_append, not_or]; exact ⟨⟨⟨⟨by decide, hm0⟩, by decide⟩, hf0⟩, by decide⟩
  have hpos : (sentence m fl).length > 0 := by unfold sentence; split <;> simp
  unfold format
  rw [if_neg hb, cstr_holds hm]
  by_cases he : fl = []
  · obtain ⟨_, _, rest, hr⟩ := hf
    have h1 : ¬ (r.field.head? ≠ some 0) := by rw [hr, he]; simp
    have e1 : c!"invalid:" ++ c!" " ++ m = sentence m fl := by rw [sentence, if_pos he]; rfl
    simp only [if_neg h1]
    rw [e1]
    exact ⟨_, _, rfl, snprintf_holds hb hz, by simp [hpos]⟩
  · have h1 : r.field.head? ≠ some 0 := by
      obtain ⟨_, _, rest, hr⟩ := hf
      rw [hr]
      cases fl with
      | nil => exact absurd rfl he
      | cons c cs =>
        simp only [List.cons_append, List.head?_cons, ne_eq, Option.some.injEq]
        exact fun hc => hf0 (by simp [hc])
    have e1 : c!"invalid:" ++ c!" " ++ m ++ c!" for field '" ++ fl ++ c!"'" = sentence m fl := by rw [sentence, if_neg he]; rfl
    simp only [if_pos h1, cstr_holds hf]
    rw [e1]
    exact ⟨_, _, rfl, snprintf_holds hb hz, by simp [hpos]⟩

/-- The sentences for events. -/
inductive EventFault : RelayErr → Bytes → Bytes → Prop
  | none : EventFault .missingField c!"null event" []
  | future : EventFault .futureEvent c!"event creation date is too far off from the current time" c!"created_at"
  | expired : EventFault .expiredEvent c!"event has expired" c!"expiration"
  | id : EventFault .invalidId c!"failed to compute event ID" c!"id"
  | mismatch : EventFault .idMismatch c!"event ID does not match content" c!"id"
  | sig : EventFault .sigMismatch c!"signature verification failed" c!"sig"

/-- The sentences for filters. -/
inductive FilterFault : RelayErr → Bytes → Bytes → Prop
  | ids : FilterFault .invalidId c!"invalid hex prefix in ids" c!"ids"
  | authors : FilterFault .invalidPubkey c!"invalid hex prefix in authors" c!"authors"
  | e : FilterFault .invalidId c!"invalid event ID in #e filter" c!"#e"
  | p : FilterFault .invalidPubkey c!"invalid pubkey in #p filter" c!"#p"
  | search : FilterFault .invalidContent c!"search query too long" c!"search"

/-- What a result says. -/
def Says (r : Result) (x : RelayErr) (m fl : Bytes) : Prop := r.valid = false ∧ r.code = some x ∧ Holds 256 r.message m ∧ Holds 64 r.field fl

theorem report_says {r : Result} {x : RelayErr} {m fl : Bytes} (h1 : r.message.length = 256) (h2 : r.field.length = 64)
    (hm : 0 ∉ m) (hf : 0 ∉ fl) (lm : m.length < 255) (lf : fl.length < 63) : Says (report r x m fl) x m fl :=
  ⟨rfl, rfl, strncpy_holds h1 hm lm (by decide), strncpy_holds h2 hf lf (by decide)⟩

/-- C169: validating an event. Whatever the result held before, every failure is reported with its code, a text of its own and the
field, which is the one of C29; success is reported as valid. -/
theorem C169_event {C : Crypto} {b : Build} {now maxFuture : Int} {e : Option Event} {r : Result} (h1 : r.message.length = 256)
    (h2 : r.field.length = 64) :
    let o := validateFull C b now maxFuture e r;
    (∀ x, o.1 = .err x → ∃ c m fl, x = .relay c ∧ Says o.2 c m fl ∧ EventFault c m fl) ∧
    (o.1 = .ok () → o.2.valid = true ∧ o.2.code = none) ∧
    (∀ ev, e = some ev → o.1 = (RelayProto.validateFull C b now maxFuture ev).1 ∧
      (o.1 ≠ .ub → Holds 64 o.2.field (RelayProto.validateFull C b now maxFuture ev).2)) := by
  cases e with
  | none =>
    refine ⟨?_, by simp [validateFull], by simp⟩
    intro x hx
    injection hx with hx
    exact ⟨_, _, _, hx.symm, ⟨rfl, rfl, strncpy_holds h1 (by decide) (by decide) (by decide), clear_holds h2 (by decide)⟩, .none⟩
  | some e =>
    have l1 : (clear r.message).length = 256 := by simp [clear, h1]
    have l2 : (clear r.field).length = 64 := by simp [clear, h2]
    have z := clear_holds h2 (by decide)
    have key : ∀ {x : RelayErr} {m fl : Bytes} {c : Option RelayErr} {v : Bool}, 0 ∉ m → 0 ∉ fl → m.length < 255 → fl.length < 63 → EventFault x m fl →
        (∀ y, (Res.err (.relay x) : Res Unit) = .err y → ∃ c' m' fl', y = .relay c' ∧
          Says (report ⟨v, c, clear r.message, clear r.field⟩ x m fl) c' m' fl' ∧ EventFault c' m' fl') ∧
        Holds 64 (report ⟨v, c, clear r.message, clear r.field⟩ x m fl).field fl := by
      intro x m fl c v a1 a2 a3 a4 hk
      have hs := report_says (r := ⟨v, c, clear r.message, clear r.field⟩) (x := x) l1 l2 a1 a2 a3 a4
      refine ⟨fun y hy => ?_, hs.2.2.2⟩
      injection hy with hy
      exact ⟨x, m, fl, hy.symm, hs, hk⟩
    simp only [validateFull, RelayProto.validateFull, isExpiredNow]
    have hv : ∀ x, validateTimestamp now e.createdAt maxFuture ≠ .err x := by
      intro x; unfold validateTimestamp; split <;> simp
    cases ht : validateTimestamp now e.createdAt maxFuture with
    | ub => simp [ht]
    | err x => exact absurd ht (hv x)
    | ok ok =>
      cases ok with
      | false =>
        have k := key (c := none) (v := false) (by decide) (by decide) (by decide) (by decide) EventFault.future
        refine ⟨k.1, by simp, ?_⟩
        intro ev hev; injection hev with hev; subst hev
        simp only [ht]
        exact ⟨by first | trivial | rfl, fun _ => k.2⟩
      | true =>
        simp only
        by_cases hx : isExpired e now = true
        · have k := key (c := none) (v := false) (by decide) (by decide) (by decide) (by decide) EventFault.expired
          rw [if_pos hx]
          refine ⟨k.1, by simp, ?_⟩
          intro ev hev; injection hev with hev; subst hev
          simp only [ht, hx, if_true]
          exact ⟨by first | trivial | rfl, fun _ => k.2⟩
        · rw [if_neg hx]
          cases hc : computeId C b e with
          | ub =>
            refine ⟨by simp, by simp, ?_⟩
            intro ev hev; injection hev with hev; subst hev
            simp [ht, hx, hc]
          | err x =>
            have k := key (c := none) (v := false) (by decide) (by decide) (by decide) (by decide) EventFault.id
            refine ⟨k.1, by simp, ?_⟩
            intro ev hev; injection hev with hev; subst hev
            simp only [ht, hx, hc]
            exact ⟨rfl, fun _ => k.2⟩
          | ok t =>
            simp only
            by_cases hm : memcmp e.id t.id ≠ 0
            · have k := key (c := none) (v := false) (by decide) (by decide) (by decide) (by decide) EventFault.mismatch
              rw [if_pos hm]
              refine ⟨k.1, by simp, ?_⟩
              intro ev hev; injection hev with hev; subst hev
              simp only [ht, hx, hc]
              rw [if_neg (by simp), if_pos hm]
              exact ⟨by first | trivial | rfl, fun _ => k.2⟩
            · rw [if_neg hm]
              cases hg : verify C b e with
              | ub =>
                refine ⟨by simp, by simp, ?_⟩
                intro ev hev; injection hev with hev; subst hev
                simp only [ht, hx, hc]
                rw [if_neg (by simp), if_neg hm]
                simp [hg]
              | err x =>
                have k := key (c := none) (v := false) (by decide) (by decide) (by decide) (by decide) EventFault.sig
                refine ⟨k.1, by simp, ?_⟩
                intro ev hev; injection hev with hev; subst hev
                simp only [ht, hx, hc]
                rw [if_neg (by simp), if_neg hm, hg]
                exact ⟨by first | trivial | rfl, fun _ => k.2⟩
              | ok u =>
                refine ⟨by simp, fun _ => ⟨rfl, rfl⟩, ?_⟩
                intro ev hev; injection hev with hev; subst hev
                simp only [ht, hx, hc]
                rw [if_neg (by simp), if_neg hm, hg]
                exact ⟨by first | trivial | rfl, fun _ => z⟩

/-- C169 (part): validating a filter that is there. Missing: a NULL filter (below). -/
theorem C169_filter_partial {f : Filter} {r : Result} (h1 : r.message.length = 256) (h2 : r.field.length = 64) :
    let o := validateFilter (some f) r;
    (∀ x, o.1 = .err x → ∃ c m fl, x = .relay c ∧ Says o.2 c m fl ∧ FilterFault c m fl) ∧
    (o.1 = .ok () → o.2.valid = true ∧ o.2.code = none) ∧
    o.1 = (Filter.validate f).1 ∧ Holds 64 o.2.field (Filter.validate f).2 := by
  have l1 : (clear r.message).length = 256 := by simp [clear, h1]
  have l2 : (clear r.field).length = 64 := by simp [clear, h2]
  have z := clear_holds h2 (by decide)
  have key : ∀ {x : RelayErr} {m fl : Bytes} {c : Option RelayErr} {v : Bool}, 0 ∉ m → 0 ∉ fl → m.length < 255 → fl.length < 63 → FilterFault x m fl →
      (∀ y, (Res.err (.relay x) : Res Unit) = .err y → ∃ c' m' fl', y = .relay c' ∧
        Says (report ⟨v, c, clear r.message, clear r.field⟩ x m fl) c' m' fl' ∧ FilterFault c' m' fl') ∧
      ((Res.err (.relay x) : Res Unit) = .ok () → (report ⟨v, c, clear r.message, clear r.field⟩ x m fl).valid = true ∧
        (report ⟨v, c, clear r.message, clear r.field⟩ x m fl).code = none) ∧
      Holds 64 (report ⟨v, c, clear r.message, clear r.field⟩ x m fl).field fl := by
    intro x m fl c v a1 a2 a3 a4 hk
    have hs := report_says (r := ⟨v, c, clear r.message, clear r.field⟩) (x := x) l1 l2 a1 a2 a3 a4
    refine ⟨fun y hy => ?_, by simp, hs.2.2.2⟩
    injection hy with hy
    exact ⟨x, m, fl, hy.symm, hs, hk⟩
  simp only [validateFilter, Filter.validate]
  by_cases c1 : (!f.ids.all validateHexPrefix) = true
  · have k := key (c := none) (v := true) (by decide) (by decide) (by decide) (by decide) FilterFault.ids
    simp only [if_pos c1]
    exact ⟨k.1, k.2.1, trivial, k.2.2⟩
  simp only [if_neg c1]
  by_cases c2 : (!f.authors.all validateHexPrefix) = true
  · have k := key (c := none) (v := true) (by decide) (by decide) (by decide) (by decide) FilterFault.authors
    simp only [if_pos c2]
    exact ⟨k.1, k.2.1, trivial, k.2.2⟩
  simp only [if_neg c2]
  by_cases c3 : (!f.eTags.all validateHex64) = true
  · have k := key (c := none) (v := true) (by decide) (by decide) (by decide) (by decide) FilterFault.e
    simp only [if_pos c3]
    exact ⟨k.1, k.2.1, trivial, k.2.2⟩
  simp only [if_neg c3]
  by_cases c4 : (!f.pTags.all validateHex64) = true
  · have k := key (c := none) (v := true) (by decide) (by decide) (by decide) (by decide) FilterFault.p
    simp only [if_pos c4]
    exact ⟨k.1, k.2.1, trivial, k.2.2⟩
  simp only [if_neg c4]
  by_cases c5 : (f.search.any fun s => decide (s.length > 65536)) = true
  · have k := key (c := none) (v := true) (by decide) (by decide) (by decide) (by decide) FilterFault.search
    simp only [if_pos c5]
    exact ⟨k.1, k.2.1, trivial, k.2.2⟩
  · simp only [if_neg c5]
    exact ⟨by simp, fun _ => by simp, trivial, z⟩

/-- C169 fails for a NULL filter: the texts are not written. Formatting a result that was never written reads past its end, and one
that was used before repeats the old failure. -/
theorem C169_missing_refuted :
    (∃ r : Result, r.message.length = 256 ∧ r.field.length = 64 ∧ (validateFilter none r).1 = .err (.relay .missingField) ∧
      ∀ buf, buf.length ≠ 0 → format (validateFilter none r).2 buf = .ub) ∧
    (∀ (f : Filter) (r : Result), (validateFilter none (validateFilter (some f) r).2).2.message = (validateFilter (some f) r).2.message) := by
  have h0 : ∀ n, (0 : UInt8) ∉ List.replicate n (0x61 : UInt8) := fun n h => absurd (List.eq_of_mem_replicate h) (by decide)
  refine ⟨⟨⟨true, none, List.replicate 256 0x61, List.replicate 64 0x61⟩, List.length_replicate, List.length_replicate, rfl, ?_⟩, fun f r => rfl⟩
  intro buf hb
  have : cstr (List.replicate 256 (0x61 : UInt8)) = none := by rw [cstr, if_neg (h0 256)]
  simp only [validateFilter, format, if_neg hb, this]

/-- C169: a valid result is formatted like a failure without a reason. -/
theorem C169_valid_refuted {f : Filter} {r : Result} (h1 : r.message.length = 256) (h2 : r.field.length = 64) {buf : Bytes} (hb : 10 ≤ buf.length)
    (hv : (validateFilter (some f) r).1 = .ok ()) : ∃ out, format (validateFilter (some f) r).2 buf = .ok (9, out) ∧ Holds buf.length out c!"invalid: " := by
  have hr : (validateFilter (some f) r).2 = ⟨true, none, clear r.message, clear r.field⟩ := by
    revert hv
    simp only [validateFilter]
    repeat' split
    all_goals simp
  obtain ⟨n, out, e1, e2, e3⟩ := C169_format (r := (validateFilter (some f) r).2) (m := []) (fl := []) (buf := buf)
    (by rw [hr]; exact clear_holds h1 (by decide)) (by rw [hr]; exact clear_holds h2 (by decide)) (by omega)
  have l : (sentence [] []).length = 9 := by decide
  rw [if_pos (by omega), l] at e3
  rw [List.take_of_length_le (by omega)] at e2
  exact ⟨out, by rw [e1, e3], e2⟩

/-- A failed validation and its report, in a buffer that is large enough and in one that is not. -/
example : ∃ out, format (validateFilter (some { empty with ids := [c!"xyz"] }) ⟨true, none, List.replicate 256 0x61, List.replicate 64 0x61⟩).2
    (List.replicate 60 0x62) = .ok (50, out) ∧ Holds 60 out c!"invalid: invalid hex prefix in ids for field 'ids'" := by
  obtain ⟨n, out, e1, e2, e3⟩ := C169_format (r := (validateFilter (some { empty with ids := [c!"xyz"] }) ⟨true, none, List.replicate 256 0x61, List.replicate 64 0x61⟩).2)
    (m := c!"invalid hex prefix in ids") (fl := c!"ids") (buf := List.replicate 60 0x62)
    (strncpy_holds (by simp only [clear, List.length_append, List.length_drop, List.length_replicate]; rfl) (by decide) (by decide) (by decide))
    (strncpy_holds (by simp only [clear, List.length_append, List.length_drop, List.length_replicate]; rfl) (by decide) (by decide) (by decide)) (by decide)
  have l : (sentence c!"invalid hex prefix in ids" c!"ids").length = 50 := by decide
  rw [l, List.length_replicate, if_pos (by omega)] at e3
  rw [List.length_replicate, List.take_of_length_le (by omega)] at e2
  exact ⟨out, by rw [e1, e3], e2⟩

/-! ## C170: descriptions of error codes -/

/-- C170: the description of a code tells which code it is. -/
theorem C170_distinct : (∀ a b, relayErrorString a = relayErrorString b → a = b) ∧
    (∀ a b : Option Err, (∀ c, a ≠ some (.relay c)) → (∀ c, b ≠ some (.relay c)) → errorString a = errorString b → a = b) := by
  constructor
  · intro a b
    rcases a with _ | a <;> rcases b with _ | b
    · simp
    · cases b <;> decide
    · cases a <;> decide
    · cases a <;> cases b <;> decide
  · intro a b ha hb
    rcases a with _ | a <;> rcases b with _ | b
    · simp
    · cases b <;> first | decide | exact absurd rfl (hb _)
    · cases a <;> first | decide | exact absurd rfl (ha _)
    · cases a <;> cases b <;> first | decide | exact absurd rfl (hb _) | exact absurd rfl (ha _)

/-- C170: two codes of the library are described as unknown. -/
theorem C170_unknown_refuted : errorString (some .notSupported) = c!"Unknown error" ∧ relayErrorString (some .storage) = c!"unknown error" :=
  ⟨rfl, rfl⟩

end Nostr.Access.Props
