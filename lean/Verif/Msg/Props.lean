import Verif.Msg.Lemmas
import Verif.Event.Props

/-! # Property theorems: C31, C32 -/

namespace Nostr.Msg.Props
open Nostr Nostr.Event Nostr.Json Nostr.Filter Nostr.Msg Nostr.Msg.Spec

/-! ## C31: client messages -/

theorem ofRoot_iff {P : Plat} {r : Bytes → Json} (hr : Renum r) (td fr cfg) {root : Json}
    (h : Fit P.real r root) (m : ClientMsg) :
    ofRoot P (.cjson td fr) r cfg root = .ok m ↔ Denotes P cfg root m := by
  cases root with
  | arr l =>
    cases l with
    | nil =>
      simp only [ofRoot, asArr, reduceCtorEq, false_iff]
      intro h; cases h
    | cons a args =>
      have hargs : ∀ j ∈ args, Fit P.real r j := fun j hj => fit_elem h (by simp [hj])
      have htail : ∀ j ∈ args.tail, Fit P.real r j := fun j hj => hargs j (List.mem_of_mem_tail hj)
      cases a with
      | str t =>
        simp only [ofRoot, asArr, asStr]
        by_cases h1 : t = c!"EVENT"
        · subst h1
          simp only [if_true]
          constructor
          · intro e
            obtain ⟨x, hx, e'⟩ := Res.bind_eq_ok.1 e
            obtain ⟨j, rest, rfl, hj⟩ := (eventArg_iff hr td fr cfg hargs x).1 hx
            cases e'
            exact .event hj
          · intro e
            cases e with
            | event hj => rw [(eventArg_iff hr td fr cfg hargs _).2 ⟨_, _, rfl, hj⟩]; rfl
        simp only [h1, if_false]
        by_cases h2 : t = c!"REQ"
        · subst h2
          simp only [if_true]
          constructor
          · intro e
            obtain ⟨id, hx, e1⟩ := Res.bind_eq_ok.1 e
            obtain ⟨fs, hf, e'⟩ := Res.bind_eq_ok.1 e1
            obtain ⟨rest, rfl, hs⟩ := (idArg_iff args id).1 hx
            obtain ⟨h3, h4⟩ := (parseFilters_iff hr htail fs).1 hf
            cases e'
            exact .req hs h3 h4
          · intro e
            cases e with
            | req hs h3 h4 =>
              rw [(idArg_iff _ _).2 ⟨_, rfl, hs⟩, Res.bind_ok, (parseFilters_iff hr htail _).2 ⟨h3, h4⟩]; rfl
        simp only [h2, if_false]
        by_cases h3 : t = c!"CLOSE"
        · subst h3
          simp only [if_true]
          constructor
          · intro e
            obtain ⟨id, hx, e'⟩ := Res.bind_eq_ok.1 e
            obtain ⟨rest, rfl, hs⟩ := (idArg_iff args id).1 hx
            cases e'
            exact .close hs
          · intro e
            cases e with
            | close hs => rw [(idArg_iff _ _).2 ⟨_, rfl, hs⟩]; rfl
        simp only [h3, if_false]
        by_cases h4 : t = c!"AUTH"
        · subst h4
          simp only [if_true]
          constructor
          · intro e
            obtain ⟨x, hx, e'⟩ := Res.bind_eq_ok.1 e
            obtain ⟨j, rest, rfl, hj⟩ := (eventArg_iff hr td fr cfg hargs x).1 hx
            cases e'
            exact .auth hj
          · intro e
            cases e with
            | auth hj => rw [(eventArg_iff hr td fr cfg hargs _).2 ⟨_, _, rfl, hj⟩]; rfl
        simp only [h4, if_false]
        by_cases h5 : t = c!"COUNT"
        · subst h5
          simp only [if_true]
          constructor
          · intro e
            obtain ⟨id, hx, e1⟩ := Res.bind_eq_ok.1 e
            obtain ⟨fs, hf, e'⟩ := Res.bind_eq_ok.1 e1
            obtain ⟨rest, rfl, hs⟩ := (idArg_iff args id).1 hx
            obtain ⟨h3, h4⟩ := (parseFilters_iff hr htail fs).1 hf
            cases e'
            exact .count hs h3 h4
          · intro e
            cases e with
            | count hs h3 h4 =>
              rw [(idArg_iff _ _).2 ⟨_, rfl, hs⟩, Res.bind_ok, (parseFilters_iff hr htail _).2 ⟨h3, h4⟩]; rfl
        simp only [h5, if_false, reduceCtorEq, false_iff]
        intro e
        cases e <;> simp_all
      | _ =>
        simp only [ofRoot, asArr, asStr, reduceCtorEq, false_iff]
        intro e; cases e
  | _ =>
    simp only [ofRoot, asArr, reduceCtorEq, false_iff]
    intro e; cases e

/-- C31 (part): a text is accepted as message `m` exactly if it is a JSON document that denotes `m`. Missing:
numbers that cJSON changes when it prints them, and elements of the wrong type in the place of an event or a filter,
see below. -/
theorem C31_parse_partial {P : Plat} {r : Bytes → Json} (hr : Renum r) (td fr cfg) (doc : Bytes) :
    (parse doc = none → clientParse P (.cjson td fr) r cfg doc 0 = .err (.relay .invalidJson)) ∧
    ∀ root, parse doc = some root → Holds P.real r root → ∀ m,
      (clientParse P (.cjson td fr) r cfg doc 0 = .ok m ↔ Denotes P cfg root m) := by
  constructor
  · intro h
    simp [clientParse, h]
  · intro root hp hh m
    obtain ⟨h1, h2⟩ := parse_cstrs hp
    simp only [clientParse, gt_iff_lt, Nat.lt_irrefl, if_false, hp]
    exact ofRoot_iff hr td fr cfg ⟨h1, h2, hh⟩ m

/-- C31: with an explicit length the text up to that length counts. -/
theorem C31_length {P : Plat} {r : Bytes → Json} (b : Build) (cfg) (doc junk : Bytes) (h : doc ≠ []) :
    clientParse P b r cfg (doc ++ junk) doc.length = clientParse P b r cfg doc 0 := by
  have : 0 < doc.length := List.length_pos_iff.2 h
  simp [clientParse, this]

/-- C31 (part): no document triggers undefined behaviour. Missing: the conversion of numbers outside the range of 64-bit integers, which is
the subject of C191. -/
theorem C31_safe_partial {P : Plat} {r : Bytes → Json} (b : Build) (cfg) (doc : Bytes) (len : Nat) :
    clientParse P b r cfg doc len ≠ .ub := by
  have hj : ∀ s, fromJson P b cfg s ≠ .ub := by
    intro s
    unfold fromJson
    split
    · simp
    · split
      · simp
      · exact fromTree_noub P cfg _
  have he : ∀ js, eventArg P b r cfg js ≠ .ub := by
    intro js
    cases js with
    | nil => simp [eventArg]
    | cons j rest =>
      simp only [eventArg]
      split
      · simp
      · simp
      · rename_i h; exact absurd h (hj _)
  have hi : ∀ js, idArg js ≠ .ub := by
    intro js
    cases js with
    | nil => simp [idArg]
    | cons j rest =>
      simp only [idArg]
      split
      · simp
      · split <;> simp
  have hl : ∀ js, filterLoop P r js ≠ .ub := by
    intro js
    induction js with
    | nil => simp [filterLoop]
    | cons j js ih =>
      rw [filterLoop]
      have hp : ∀ s n, parseFilter P.real s n ≠ .ub := by
        intro s n; unfold parseFilter; split
        · simp
        · exact ofTree_noub _ _
      intro h
      simp only [Res.bind_eq_ub] at h
      simp [ih, hp, validate_noub] at h
  have hf : ∀ js, parseFilters P r js ≠ .ub := by
    intro js
    unfold parseFilters
    split
    · simp
    · split
      · simp
      · exact hl js
  unfold clientParse
  split
  · simp
  · unfold ofRoot
    split
    · simp
    · simp
    · split
      · simp
      · repeat' split
        all_goals
          first
            | simp; done
            | intro h
              simp only [Res.bind_eq_ub] at h
              simp [he, hi, hf] at h

/-- C31: the subscription id, the filters and the event of an accepted message are what the accessors return;
the id has 1 to 64 characters and is the second element of the document, and a subscription has as many filters
as the document has elements after the id. -/
theorem C31_fields {P : Plat} {cfg} {root : Json} {m : ClientMsg} (h : Denotes P cfg root m) :
    (∀ id ∈ getSubId (some m), (1 ≤ id.length ∧ id.length ≤ 64) ∧
      ∃ t rest, root = .arr (.str t :: .str id :: rest) ∧
        (t = c!"CLOSE" ∨ (getFilters (some m)).length = rest.length ∧ rest.length ≤ 10)) ∧
    (∀ e ∈ getEvent (some m), ∃ t j rest, root = .arr (.str t :: j :: rest) ∧ fromTree P cfg j = .ok e) := by
  cases h with
  | event hj => exact ⟨by simp [getSubId], by rintro e ⟨⟩; exact ⟨_, _, _, rfl, hj⟩⟩
  | auth hj => exact ⟨by simp [getSubId], by rintro e ⟨⟩; exact ⟨_, _, _, rfl, hj⟩⟩
  | close hs => exact ⟨by rintro id ⟨⟩; exact ⟨hs.1, _, _, rfl, .inl rfl⟩, by simp [getEvent]⟩
  | req hs hl hf =>
    exact ⟨by rintro id ⟨⟩; exact ⟨hs.1, _, _, rfl, .inr ⟨hf.length, hl⟩⟩, by simp [getEvent]⟩
  | count hs hl hf =>
    exact ⟨by rintro id ⟨⟩; exact ⟨hs.1, _, _, rfl, .inr ⟨hf.length, hl⟩⟩, by simp [getEvent]⟩

/-- A number printer for the examples: plain integers are printed in decimal, all others as the integer that
`real` reads. -/
def toyRenum (real : Bytes → Int) (t : Bytes) : Json := .num (Num.decInt (int64 real t))

theorem natOf_lt {ds : Bytes} (h : ds.all Num.isDigit = true) : Num.natOf ds < 10 ^ ds.length := by
  have key : ∀ n, ∀ l : Bytes, l.length = n → l.all Num.isDigit = true → Num.natOf l < 10 ^ l.length := by
    intro n
    induction n with
    | zero => intro l hl _; rw [List.length_eq_zero_iff.1 hl]; decide
    | succ n ih =>
      intro l hl hd
      rcases List.eq_nil_or_concat l with rfl | ⟨a, c, rfl⟩
      · simp at hl
      · simp only [List.concat_eq_append, List.length_append, List.length_singleton, List.all_append, List.all_cons,
          List.all_nil, Bool.and_true, Bool.and_eq_true] at hl hd ⊢
        have h1 := ih a (by omega) hd.1
        have h2 := (Num.isDigit_iff c).1 hd.2
        rw [Num.natOf_append, Nat.pow_succ]
        omega
  exact key _ ds rfl h

theorem toy_renum : Renum (toyRenum fun _ => 0) := by
  have hsmall : ∀ t, (int64 (fun _ => 0) t).natAbs < 10 ^ 15 := by
    intro t
    unfold int64 plainInt
    simp only
    generalize (if (List.head? t == some 0x2d) = true then t.tail else t) = ds
    generalize (List.head? t == some 0x2d) = b
    by_cases h : ds ≠ [] ∧ ds.length ≤ 15 ∧ ds.all Num.isDigit = true
    · rw [if_pos h]
      have h1 := natOf_lt h.2.2
      have h2 : (10 : Nat) ^ ds.length ≤ 10 ^ 15 := Nat.pow_le_pow_right (by decide) h.2.1
      simp only [Option.getD_some]
      cases b <;> simp <;> omega
    · rw [if_neg h]; simp
  refine ⟨?_, ?_⟩
  · intro t
    exact .inr ⟨_, rfl, goodNum_decInt (by have := hsmall t; omega)⟩
  · intro t i h; simp [toyRenum, int64, h]

/-- A request with two filters. -/
def reqText : Bytes := c!"[\"REQ\",\"sub1\",{\"kinds\":[1,7],\"since\":1700000000},{\"authors\":[\"ab\"]}]"

example : clientParse ⟨fun _ => 0, false⟩ (.cjson id fun _ => []) (toyRenum fun _ => 0) none reqText 0 =
    .ok (.req (c!"sub1") [{ empty with kinds := [1, 7], since := 1700000000 }, { empty with authors := [c!"ab"] }]) := by
  decide +kernel

/-- C31 fails for elements of the wrong type: a number in the place of the event is accepted as an event with
all fields zero, and a number in the place of a filter is accepted as the filter that matches everything. -/
theorem C31_wrong_type_refuted (P : Plat) (r : Bytes → Json) (hr : Renum r) (td fr cfg) :
    clientParse P (.cjson td fr) r cfg (c!"[\"EVENT\",7]") 0 = .ok (.event Event.zero) ∧
    clientParse P (.cjson td fr) r cfg (c!"[\"REQ\",\"s\",7]") 0 = .ok (.req (c!"s") [Filter.empty]) ∧
    ∀ e, filtersMatch [Filter.empty] e = true := by
  have hh : r (c!"7") = .num (c!"7") := hr.plain _ 7 (by decide)
  refine ⟨?_, ?_, ?_⟩
  · refine ((C31_parse_partial hr td fr cfg _).2 (.arr [.str (c!"EVENT"), .num (c!"7")]) (by decide +kernel) ?_ _).2 ?_
    · simp [Holds, HoldsL, hh]
    · exact .event (by rfl)
  · refine ((C31_parse_partial hr td fr cfg _).2 (.arr [.str (c!"REQ"), .str (c!"s"), .num (c!"7")]) (by decide +kernel)
      ?_ _).2 ?_
    · simp [Holds, HoldsL, hh]
    · exact .req ⟨by decide, by decide⟩ (by decide) (.cons (by rfl) (by rfl) .nil)
  · intro e; simp [filtersMatch, matches_, Filter.empty]

/-! ## C32: relay messages -/

/-- C32: the call either writes the complete text followed by NUL inside the buffer and reports its length, or
returns an error and writes nothing; when the buffer is too small the length that would be needed is reported.
A larger buffer never turns success into failure. -/
theorem C32_buffer (td fr r) (m : RelayMsg) (n : Nat) :
    (∃ t, (∀ k, serialize td fr r m k =
        if k = 0 then ⟨.err (.relay .invalidJson), [], none⟩
        else if t.length < k then ⟨.ok (), t ++ [0], some t.length⟩
        else ⟨.err (.relay .bufferTooSmall), [], some t.length⟩)) ∨
    (∃ o, ∀ k, (serialize td fr r m k).wrote = [] ∧ (serialize td fr r m k).res ≠ .ok () ∧
      (k ≠ 0 → (serialize td fr r m k).res = o)) := by
  cases h : msgTree td fr r m with
  | ok j =>
    left
    refine ⟨print false 0 j, fun k => ?_⟩
    unfold serialize
    rw [h]
    simp only
    split
    · rfl
    · by_cases hl : (print false 0 j).length < k
      · simp only [hl, if_true]; rw [if_neg (by omega)]
      · simp only [hl, if_false]; rw [if_pos (by omega)]
  | err e =>
    right
    refine ⟨.err e, fun k => ?_⟩
    unfold serialize
    rw [h]
    by_cases hk : k = 0 <;> simp [hk]
  | ub =>
    right
    refine ⟨.ub, fun k => ?_⟩
    unfold serialize
    rw [h]
    by_cases hk : k = 0 <;> simp [hk]

/-- The array of a message is good for printing and reading back, and is the one NIP-01 prescribes. -/
theorem msgTree_wire {P : Plat} {r : Bytes → Json} (hr : Renum r) (td fr cfg) {m : RelayMsg} (hm : Plain m)
    (he : ∀ s, m ≠ .event s none)
    (hc : ∀ s e, m = .event s (some e) → ∀ c ∈ cfg, e.tags.length ≤ c.maxTags ∧ e.text.length ≤ c.maxContent) :
    ∃ j, msgTree td fr r m = .ok j ∧ Good j ∧ height j ≤ nestingLimit ∧ Wire P cfg m j := by
  cases m with
  | event sub e =>
    cases e with
    | none => exact absurd rfl (he sub)
    | some e =>
      obtain ⟨hs, hw⟩ := hm
      obtain ⟨hw, ht⟩ := hw e rfl
      obtain ⟨g1, g2⟩ := good_toTree (td := td) (fr := fr) hw ht
      have h1 := parse_print true 0 _ g1 g2 [] (by simp [Stop])
      rw [List.append_nil] at h1
      have hmap : mapNum r (toTree td fr e) = toTree td fr e := by
        have hk := hw.kind
        have hstr : ∀ l : List Bytes, mapNumL r (l.map Json.str) = l.map Json.str := by
          intro l; rw [mapNumL_map, List.map_map]; apply List.map_congr_left; intro x _; simp [mapNum]
        have htags : mapNumL r (e.tags.map fun t => .arr (t.map .str)) = e.tags.map fun t => .arr (t.map .str) := by
          rw [mapNumL_map, List.map_map]; apply List.map_congr_left; intro x _; simp [mapNum, hstr]
        simp only [toTree, mapNum, mapNumM, numTok_small td fr ht,
          numTok_small td fr (n := (e.kind : Int)) (by omega), hr.small _ ht,
          hr.small (e.kind : Int) (by omega), htags]
      refine ⟨.arr [.str (c!"EVENT"), .str sub, toTree td fr e], ?_, ?_, ?_, ?_⟩
      · simp only [msgTree, toJson, h1, hmap]
      · simp only [Good, GoodL]; exact ⟨by decide, hs, g1, trivial⟩
      · have g3 : height (toTree td fr e) ≤ 3 := by
          unfold toTree
          simp only [height, heightM]
          have : heightL (e.tags.map fun t => .arr (t.map .str)) ≤ 1 := by
            induction e.tags with
            | nil => simp [heightL]
            | cons t ts ih =>
              have : heightL (t.map Json.str) = 0 := by
                induction t with
                | nil => rfl
                | cons a t ih => simp [heightL, height, ih]
              simp only [List.map_cons, heightL, height, this]
              omega
          omega
        simp only [height, heightL, nestingLimit]
        omega
      · exact .event (fromTree_back P cfg td fr hw ht (hc _ _ rfl))
  | ok id s msg =>
    refine ⟨_, rfl, ?_, ?_, ?_⟩
    · cases s <;> simp only [Good, GoodL, bool] <;> exact ⟨by decide, hm.1, trivial, hm.2, trivial⟩
    · cases s <;> simp [height, heightL, bool, nestingLimit]
    · cases s
      · exact .okFalse
      · exact .okTrue
  | eose sub =>
    refine ⟨_, rfl, ?_, ?_, .eose⟩
    · simp only [Good, GoodL]; exact ⟨by decide, hm, trivial⟩
    · simp [height, heightL, nestingLimit]
  | closed sub msg =>
    refine ⟨_, rfl, ?_, ?_, .closed⟩
    · simp only [Good, GoodL]; exact ⟨by decide, hm.1, hm.2, trivial⟩
    · simp [height, heightL, nestingLimit]
  | notice msg =>
    refine ⟨_, rfl, ?_, ?_, .notice⟩
    · simp only [Good, GoodL]; exact ⟨by decide, hm, trivial⟩
    · simp [height, heightL, nestingLimit]
  | auth msg =>
    refine ⟨_, rfl, ?_, ?_, .auth⟩
    · simp only [Good, GoodL]; exact ⟨by decide, hm, trivial⟩
    · simp [height, heightL, nestingLimit]
  | count q n a =>
    obtain ⟨h1, h2⟩ := hm
    refine ⟨_, rfl, ?_, ?_, ?_⟩
    · rw [numTok_small td fr h2]
      have := goodNum_decInt (i := n) (by omega)
      cases a <;> simp only [Good, GoodL, GoodM, Bool.false_eq_true, if_false, if_true]
      · exact ⟨by decide, h1, ⟨by decide, this, trivial⟩, trivial⟩
      · exact ⟨by decide, h1, ⟨by decide, this, by decide, trivial, trivial⟩, trivial⟩
    · cases a <;> simp [height, heightL, heightM, nestingLimit]
    · have : int64 P.real (numTok td fr n) = n := by rw [numTok_small td fr h2]; exact int64_decInt _ h2
      cases a
      · exact .count this
      · exact .approx this

/-- C32 (part): in a sufficiently large buffer the call succeeds, and the text written is a JSON array that
carries exactly the fields of the message. Missing: times and counts of 10^15 and more, see below. -/
theorem C32_text_partial {P : Plat} {r : Bytes → Json} (hr : Renum r) (td fr cfg) {m : RelayMsg}
    (hm : Plain m) (he : ∀ s, m ≠ .event s none)
    (hc : ∀ s e, m = .event s (some e) → ∀ c ∈ cfg, e.tags.length ≤ c.maxTags ∧ e.text.length ≤ c.maxContent) :
    ∃ t j, (∀ k, t.length < k → serialize td fr r m k = ⟨.ok (), t ++ [0], some t.length⟩) ∧
      parse t = some j ∧ Wire P cfg m j := by
  obtain ⟨j, h1, h2, h3, h4⟩ := msgTree_wire hr td fr cfg hm he hc
  refine ⟨print false 0 j, j, ?_, ?_, h4⟩
  · intro k hk
    unfold serialize
    rw [if_neg (by omega), h1]
    simp only
    rw [if_neg (by omega)]
  · have := parse_print false 0 j h2 h3 [] (by simp [Stop])
    rwa [List.append_nil] at this

/-- The array determines the message (the content of an event up to NULL versus empty). -/
theorem wire_inj {P : Plat} {cfg} {m1 m2 : RelayMsg} {j : Json} (h1 : Wire P cfg m1 j) (h2 : Wire P cfg m2 j) :
    (∃ s e1 e2, m1 = .event s (some e1) ∧ m2 = .event s (some e2) ∧
      ({ e1 with content := some e1.text } : Event) = { e2 with content := some e2.text }) ∨ m1 = m2 := by
  cases h1 with
  | event hx =>
    cases h2 with
    | event hy => rw [hx] at hy; exact .inl ⟨_, _, _, rfl, rfl, Res.ok.inj hy⟩
  | okTrue => cases h2; exact .inr rfl
  | okFalse => cases h2; exact .inr rfl
  | eose => cases h2; exact .inr rfl
  | closed => cases h2; exact .inr rfl
  | notice => cases h2; exact .inr rfl
  | auth => cases h2; exact .inr rfl
  | count hx =>
    cases h2 with
    | count hy => rw [← hx, ← hy]; exact .inr rfl
  | approx hx =>
    cases h2 with
    | approx hy => rw [← hx, ← hy]; exact .inr rfl

/-- C32: different messages have different texts, so the receiver cannot mistake one for another. -/
theorem C32_injective_partial {r : Bytes → Json} (hr : Renum r) (td fr) {m1 m2 : RelayMsg}
    (h1 : Plain m1) (h2 : Plain m2) (e1 : ∀ s, m1 ≠ .event s none) (e2 : ∀ s, m2 ≠ .event s none) {k1 k2 : Nat}
    {t : Bytes} {o1 o2 : Option Nat} (s1 : serialize td fr r m1 k1 = ⟨.ok (), t, o1⟩)
    (s2 : serialize td fr r m2 k2 = ⟨.ok (), t, o2⟩) :
    (∃ s e1 e2, m1 = .event s (some e1) ∧ m2 = .event s (some e2) ∧
      ({ e1 with content := some e1.text } : Event) = { e2 with content := some e2.text }) ∨ m1 = m2 := by
  obtain ⟨t1, j1, a1, b1, c1⟩ := C32_text_partial (P := ⟨fun _ => 0, false⟩) hr td fr none h1 e1 (by simp)
  obtain ⟨t2, j2, a2, b2, c2⟩ := C32_text_partial (P := ⟨fun _ => 0, false⟩) hr td fr none h2 e2 (by simp)
  have key : ∀ m t1 k o, (∀ k, t1.length < k → serialize td fr r m k = ⟨.ok (), t1 ++ [0], some t1.length⟩) →
      serialize td fr r m k = ⟨.ok (), t, o⟩ → t = t1 ++ [0] := by
    intro m t1 k o ha hs
    rcases C32_buffer td fr r m k with ⟨t', h⟩ | ⟨o', h⟩
    · have hb := ha (t1.length + t'.length + 1) (by omega)
      rw [h, if_neg (by omega), if_pos (by omega)] at hb
      rw [h] at hs
      split at hs
      · simp at hs
      · split at hs
        · simp only [Out.mk.injEq, true_and] at hs hb
          rw [← hs.1, hb.1]
        · simp at hs
    · exact absurd (by rw [hs]) (h k).2.1
  have e := (key m1 t1 k1 o1 a1 s1).symm.trans (key m2 t2 k2 o2 a2 s2)
  have e' := (List.append_inj_left e (by have := congrArg List.length e; simpa using this))
  subst e'
  rw [b1] at b2
  cases b2
  exact wire_inj c1 c2

/-- C32: the builders keep arguments within the documented limits and cut longer ones at the limit; a negative
count becomes 0. -/
theorem C32_builders (sub id msg ch : Bytes) (e : Option Event) (b : Bool) (n : Int) :
    mkEvent (some sub) e = .event (sub.take 64) e ∧ mkOk (some id) b (some msg) = .ok (id.take 64) b (msg.take 255) ∧
    mkEose (some sub) = .eose (sub.take 64) ∧ mkClosed (some sub) (some msg) = .closed (sub.take 64) (msg.take 255) ∧
    mkNotice (some msg) = .notice (msg.take 255) ∧ mkAuth (some ch) = .auth (ch.take 127) ∧
    mkCount (some sub) n b = .count (sub.take 64) (max n 0) b := by
  refine ⟨rfl, rfl, rfl, rfl, rfl, rfl, ?_⟩
  unfold mkCount
  simp only [field, Option.map_some, Option.getD_some]
  congr 1
  split <;> omega

/-- C32 fails for large counts: two different counts produce the same text. -/
theorem C32_large_count_refuted (td : Int → Int) (fr r) (hd : td (2 ^ 53 + 1) = td (2 ^ 53)) (q : Bytes) (k : Nat) :
    RelayMsg.count q (2 ^ 53 + 1) false ≠ .count q (2 ^ 53) false ∧
    serialize td fr r (.count q (2 ^ 53 + 1) false) k = serialize td fr r (.count q (2 ^ 53) false) k := by
  have h1 : numTok td fr (2 ^ 53 + 1) = numTok td fr (2 ^ 53) := by
    unfold numTok
    rw [if_neg (by decide), if_neg (by decide), hd]
  refine ⟨by intro h; injection h with _ h; revert h; decide, ?_⟩
  unfold serialize
  simp only [msgTree, h1]

example : ∃ m, Plain m ∧ (∀ s, m ≠ .event s none) ∧ ∃ s e, m = .event s (some e) ∧ e.tags ≠ [] :=
  ⟨.event (c!"sub1") (some Event.Props.note), ⟨by decide, by
    rintro x ⟨⟩; exact ⟨Event.Props.note_wf, by decide⟩⟩, by simp, _, _, rfl, by decide⟩

example : serialize id (fun _ => []) (toyRenum fun _ => 0) (.ok (c!"ab") true (c!"hi")) 22 =
    ⟨.ok (), c!"[\"OK\",\"ab\",true,\"hi\"]" ++ [0], some 21⟩ ∧
    serialize id (fun _ => []) (toyRenum fun _ => 0) (.ok (c!"ab") true (c!"hi")) 21 =
    ⟨.err (.relay .bufferTooSmall), [], some 21⟩ := by
  decide +kernel

end Nostr.Msg.Props
