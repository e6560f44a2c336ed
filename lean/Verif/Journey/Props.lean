import Verif.Journey.Spec
import Verif.Event.Read
import Verif.Json.NoNul
import Verif.Double.MessageProps

/-! # Property C198: a published event reaches the subscribers whose filters match, and nothing else does -/

namespace Nostr.Journey.Props
open Nostr Nostr.Event Nostr.Json Nostr.Filter Nostr.Msg Nostr.Event.Spec Nostr.Journey.Spec

/-! ## Lemmas -/

theorem serialize_delivered (b : Build) (e : Event) : Event.serialize b (delivered e) = Event.serialize b e := by
  cases b <;> rfl

theorem verify_delivered (C : Crypto) (b : Build) (e : Event) : verify C b (delivered e) = .ok () ↔ verify C b e = .ok () := by
  unfold verify computeId
  rw [serialize_delivered]
  cases Event.serialize b e <;> simp [delivered]

theorem matches_delivered (fs : List Filter) (e : Event) : filtersMatch fs (delivered e) = filtersMatch fs e := rfl

theorem delivered_twice (e : Event) : delivered (delivered e) = delivered e := rfl

theorem wf_delivered {e : Event} (h : WF e) : WF (delivered e) := ⟨h.id, h.pubkey, h.sig, h.time, h.kind, h.tags, h.content⟩

theorem mapNum_toTree {r : Bytes → Json} (hr : Renum r) (td fr) {e : Event} (h : WF e) (ht : e.createdAt.natAbs < 10 ^ 15) :
    mapNum r (toTree td fr e) = toTree td fr e := by
  have hk := h.kind
  have hstr : ∀ l : List Bytes, mapNumL r (l.map Json.str) = l.map Json.str := by
    intro l; rw [mapNumL_map, List.map_map]; apply List.map_congr_left; intro x _; simp [mapNum]
  have htags : mapNumL r (e.tags.map fun t => .arr (t.map .str)) = e.tags.map fun t => .arr (t.map .str) := by
    rw [mapNumL_map, List.map_map]; apply List.map_congr_left; intro x _; simp [mapNum, hstr]
  simp only [toTree, mapNum, mapNumM, numTok_small td fr ht, numTok_small td fr (n := (e.kind : Int)) (by omega), hr.small _ ht,
    hr.small (e.kind : Int) (by omega), htags]

/-- The text of an event message. -/
def text (h : Host) (id : Bytes) (e : Event) : Bytes := print false 0 (.arr [.str (c!"EVENT"), .str id, toTree h.td h.fr e])

theorem good_text {h : Host} {id : Bytes} (hid : CStr id) {e : Event} (w : WF e) (ht : e.createdAt.natAbs < 10 ^ 15) :
    Good (.arr [.str (c!"EVENT"), .str id, toTree h.td h.fr e]) ∧ height (.arr [.str (c!"EVENT"), .str id, toTree h.td h.fr e]) ≤ nestingLimit := by
  have g := good_toTree (td := h.td) (fr := h.fr) w ht
  have g2 := Relay.Props.height_toTree h.td h.fr e
  constructor
  · simp only [Good, GoodL]; exact ⟨by decide, hid, g.1, trivial⟩
  · simp only [height, heightL, nestingLimit]; omega

theorem message_text {h : Host} (hr : Renum h.r) {id : Bytes} (hl : id.length ≤ 64) {e : Event} (w : WF e)
    (ht : e.createdAt.natAbs < 10 ^ 15) (k : Nat) :
    message h k id e = if (text h id e).length < k then some (text h id e) else none := by
  have hg := good_toTree (td := h.td) (fr := h.fr) w ht
  have h1 := parse_print true 0 _ hg.1 hg.2 [] (by simp [Stop])
  rw [List.append_nil] at h1
  have hf : field 64 (some id) = id := by simp [field, List.take_of_length_le hl]
  unfold message Msg.serialize mkEvent
  rw [hf]
  by_cases hk : k = 0
  · rw [if_pos hk, if_neg (by omega)]
  · rw [if_neg hk]
    simp only [msgTree, toJson, h1, mapNum_toTree hr h.td h.fr w ht]
    by_cases hlt : (text h id e).length < k
    · rw [if_neg (by unfold text at hlt; omega), if_pos hlt]
      simp [text]
    · rw [if_pos (by unfold text at hlt; omega), if_neg hlt]

theorem text_array {h : Host} {id : Bytes} (hid : CStr id) {e : Event} (w : WF e) (ht : e.createdAt.natAbs < 10 ^ 15) :
    Relay.Spec.ArrayText (text h id e) ∧ parse (text h id e) = some (.arr [.str (c!"EVENT"), .str id, toTree h.td h.fr e]) := by
  obtain ⟨g1, g2⟩ := good_text (h := h) hid w ht
  refine ⟨⟨print_cstr false 0 _ g1, [.str (c!"EVENT"), .str id, toTree h.td h.fr e], ?_⟩, ?_⟩
  · have := value_back false (.arr [.str (c!"EVENT"), .str id, toTree h.td h.fr e]) (2 * (text h id e).length + 2) 0 0 [] (by have := need_le false _ 0 g1; unfold text; omega) g1 (by omega)
      (by simp [Stop])
    rwa [List.append_nil] at this
  · have := parse_print false 0 _ g1 g2 [] (by simp [Stop])
    rwa [List.append_nil] at this

theorem text_stream {m : Bytes} (h : Relay.Spec.ArrayText m) : Relay.Spec.Stream [m] m := by
  have := Relay.Spec.Stream.cons (bl := []) (by intro c hc; cases hc) h (.nil (bl := []) (by intro c hc; cases hc))
  simpa using this

/-- A limit only refuses: what is read with one is read without. -/
theorem fromTree_unlimited {P : Plat} {cfg : Option Config.Config} {j : Json} {e : Event} (h : fromTree P cfg j = .ok e) :
    fromTree P none j = .ok e := by
  have htags : ∀ (l : List Json) (x y : Event), addTags cfg x l = .ok y → addTags none x l = .ok y := by
    intro l
    induction l with
    | nil => intro x y h; exact h
    | cons j l ih =>
      intro x y h
      unfold addTags at h ⊢
      split at h
      · unfold addTag at h ⊢
        simp only [reduceCtorEq, if_false, Option.any_none, Bool.false_eq_true, tagValues, List.map_cons] at h ⊢
        by_cases hc : (cfg.any fun c => decide (x.tags.length ≥ c.maxTags)) = true
        · rw [if_pos hc] at h; simp at h
        · rw [if_neg hc] at h
          exact ih _ _ h
      · exact ih _ _ h
  unfold fromTree at h ⊢
  obtain ⟨i, h1, h⟩ := Res.bind_eq_ok.1 h
  obtain ⟨p, h2, h⟩ := Res.bind_eq_ok.1 h
  obtain ⟨c, h3, h⟩ := Res.bind_eq_ok.1 h
  obtain ⟨x, h4, h⟩ := Res.bind_eq_ok.1 h
  have h3' : contentField none j = .ok c := by
    unfold contentField at h3 ⊢
    split at h3
    · exact h3
    · split at h3
      · cases h3
      · simpa using h3
  have h4' : tagsField none j ⟨i, p, (numFields P j).1, (numFields P j).2, [], c, zero.sig⟩ = .ok x := by
    unfold tagsField at h4 ⊢
    split at h4
    · exact h4
    · split at h4
      · cases h4
      · simpa using htags _ _ _ h4
  rw [h1, Res.bind_ok, h2, Res.bind_ok, h3', Res.bind_ok, h4', Res.bind_ok]
  exact h

/-- The strings of an event read from a tree are C strings, and its tags are not empty. -/
theorem fromTree_strings {P : Plat} {cfg : Option Config.Config} {j : Json} (hj : CStrs j) {e : Event} (h : fromTree P cfg j = .ok e) :
    (∀ t ∈ e.tags, t ≠ [] ∧ ∀ v ∈ t, CStr v) ∧ CStr e.text := by
  have hget : ∀ k v, get j k = some v → CStrs v := by
    intro k v hg
    cases j with
    | obj m =>
      simp only [CStrs] at hj
      simp only [Json.get] at hg
      obtain ⟨q, hq, rfl⟩ := Option.map_eq_some_iff.1 hg
      have hm := List.mem_of_find?_eq_some hq
      clear hq hg h
      induction m with
      | nil => cases hm
      | cons a m ih =>
        simp only [CStrsM] at hj
        rcases List.mem_cons.1 hm with rfl | hm
        · exact hj.2.1
        · exact ih hj.2.2 hm
    | _ => simp [Json.get] at hg
  have hadd : ∀ (l : List Json) (x y : Event), (∀ z ∈ l, CStrs z) → (∀ t ∈ x.tags, t ≠ [] ∧ ∀ v ∈ t, CStr v) →
      addTags cfg x l = .ok y → (∀ t ∈ y.tags, t ≠ [] ∧ ∀ v ∈ t, CStr v) ∧ y.content = x.content := by
    intro l
    induction l with
    | nil => intro x y _ hx h; cases h; exact ⟨hx, rfl⟩
    | cons z l ih =>
      intro x y hl hx h
      unfold addTags at h
      have hz := hl z (by simp)
      have hl' : ∀ z ∈ l, CStrs z := fun z hz => hl z (by simp [hz])
      split at h
      · rename_i v vs hv
        split at h
        · rename_i x1 h1
          have hx1 : x1 = { x with tags := x.tags ++ [tagValues (v :: vs)] } := by
            unfold addTag at h1
            split at h1
            · cases h1
            · split at h1
              · cases h1
              · cases h1; rfl
          have := ih x1 y hl' ?_ h
          · rw [hx1] at this; exact this
          · rw [hx1]
            intro t ht
            simp only [List.mem_append, List.mem_singleton] at ht
            rcases ht with ht | rfl
            · exact hx t ht
            · refine ⟨by simp [tagValues], ?_⟩
              intro w hw
              simp only [tagValues, List.mem_map] at hw
              obtain ⟨u, hu, rfl⟩ := hw
              have hz' : CStrsL (v :: vs) := by
                cases z with
                | arr l' => simp only [asArr, Option.some.injEq] at hv; subst hv; exact hz
                | _ => simp [asArr] at hv
              have hcu := (CStrsL_iff _).1 hz' u hu
              cases u with
              | str s => exact hcu
              | _ => simp [asStr, CStr]
        · cases h
        · cases h
      · exact ih x y hl' hx h
  unfold fromTree at h
  obtain ⟨i, h1, h⟩ := Res.bind_eq_ok.1 h
  obtain ⟨p, h2, h⟩ := Res.bind_eq_ok.1 h
  obtain ⟨c, h3, h⟩ := Res.bind_eq_ok.1 h
  obtain ⟨x, h4, h⟩ := Res.bind_eq_ok.1 h
  obtain ⟨s, h5, h⟩ := Res.bind_eq_ok.1 h
  cases h
  have hc : ∀ s, c = some s → CStr s := by
    intro s hs
    unfold contentField at h3
    cases hg : get j (c!"content") with
    | none => simp [hg] at h3; rw [← h3] at hs; cases hs
    | some v =>
      have hv := hget _ _ hg
      cases v with
      | str q =>
        simp only [hg, Option.bind_some, asStr] at h3
        split at h3
        · cases h3
        · cases h3; cases hs; exact hv
      | _ => simp [hg, asStr] at h3; rw [← h3] at hs; cases hs
  have hx : (∀ t ∈ x.tags, t ≠ [] ∧ ∀ v ∈ t, CStr v) ∧ x.content = c := by
    unfold tagsField at h4
    cases hg : get j (c!"tags") with
    | none => simp [hg] at h4; rw [← h4]; simp
    | some v =>
      have hv := hget _ _ hg
      cases v with
      | arr l =>
        simp only [hg, Option.bind_some, asArr] at h4
        split at h4
        · cases h4
        · exact hadd l _ x ((CStrsL_iff l).1 hv) (by simp) h4
      | _ => simp [hg, asArr] at h4; rw [← h4]; simp
  refine ⟨hx.1, ?_⟩
  show CStr (x.content.getD [])
  rw [hx.2]
  cases c with
  | none => simp [CStr]
  | some q => exact hc q rfl

theorem verify_host {C : Crypto} (a b : Host) {e : Event} (w : WF e) (ht : e.createdAt.natAbs < 10 ^ 15) :
    verify C a.b e = verify C b.b e := by
  have hk := w.kind
  have : Event.serialize a.b e = Event.serialize b.b e := by
    simp only [Host.b, Event.serialize, idTree, numTok_small _ _ ht, numTok_small _ _ (n := (e.kind : Int)) (by omega),
      numTok_small _ _ (n := 0) (by decide)]
  unfold verify computeId
  rw [this]

theorem sent {a : Host} {e : Event} (w : WF e) (ht : e.createdAt.natAbs < 10 ^ 15) :
    ∃ t, Relay.sendEvent a.b e = .ok t ∧ parse t = some (.arr [.str (c!"EVENT"), toTree a.td a.fr e]) := by
  obtain ⟨g1, -⟩ := good_toTree (td := a.td) (fr := a.fr) w ht
  have g2 := Relay.Props.height_toTree a.td a.fr e
  refine ⟨c!"[\"EVENT\"," ++ print true 0 (toTree a.td a.fr e) ++ c!"]", ?_, ?_⟩
  · simp only [Relay.sendEvent, Host.b, toJson, Res.bind_ok, Relay.eventText]
    rw [if_neg (by simp only [List.length_append, List.length_cons, List.length_nil]; omega)]
  · have hn := need_le true (toTree a.td a.fr e) 0 g1
    obtain ⟨f, hf, e'⟩ := Relay.Props.parse_one (a := c!"EVENT") (by decide) (print true 0 (toTree a.td a.fr e) ++ c!"]")
    have et : ∀ x : Bytes, c!"[\"EVENT\"," ++ x ++ c!"]" = 0x5b :: quoted (c!"EVENT") ++ 0x2c :: (x ++ c!"]") := by
      intro x
      rw [show quoted (c!"EVENT") = c!"\"EVENT\"" by decide]
      simp
    rw [et, e', Relay.Props.elems_last true 0 g1 (by simp only [nestingLimit]; omega) (f + 1)
      (by simp only [List.length_append] at hf; omega) []]
    rfl

/-- The relay reads the event that was sent. -/
theorem read_sent {a h : Host} (hr : Renum h.r) {e : Event} (w : WF e) (ht : e.createdAt.natAbs < 10 ^ 15) (hadm : h.Admits e) {t : Bytes}
    (hs : Relay.sendEvent a.b e = .ok t) : clientParse h.P h.b h.r h.cfg t 0 = .ok (.event (delivered e)) := by
  obtain ⟨t', h1, h2⟩ := sent (a := a) w ht
  rw [hs] at h1
  cases h1
  obtain ⟨g1, g2⟩ := good_toTree (td := a.td) (fr := a.fr) w ht
  have h3 := parse_print false 0 _ g1 g2 [] (by simp [Stop])
  rw [List.append_nil] at h3
  simp only [clientParse, Nat.lt_irrefl, gt_iff_lt, if_false, h2, ofRoot, asArr, asStr, if_true, eventArg, fromJson, Host.b, reprint,
    mapNum_toTree hr a.td a.fr w ht, h3, fromTree_back h.P h.cfg a.td a.fr w ht hadm]
  rfl

/-- What a client does with the chunks of one message is what it does with the message. -/
theorem arrive_text (h : Host) (hasCb : Bool) (past : List Relay.Spec.Op) {m : Bytes} (hm : Relay.Spec.ArrayText m) {chunk : Nat}
    (hfit : m.length + chunk + 1024 ≤ 10485760) (cs : List Bytes) (hcs : cs.flatten = m) (hC : ∀ c ∈ cs, c.length ≤ chunk) :
    arrive h hasCb past cs =
      some (Relay.Props.step h.P h.b h.cfg h.r hasCb (Relay.Props.subsAfter h.P h.b h.cfg h.r hasCb past) (.text m)).2 := by
  obtain ⟨st, h1, -⟩ := Relay.Props.C33_exact (text_stream hm) (longest := m.length) (chunk := chunk) (by simp) hfit cs hcs hC
  unfold arrive
  rw [h1]
  simp

/-- The event that a message of an arbitrary text carries is well formed, if its time is one that JSON carries. -/
theorem parsed_wf {h : Host} (hr : Renum h.r) {t : Bytes} {e : Event} (hp : clientParse h.P h.b h.r h.cfg t 0 = .ok (.event e))
    (ht : e.createdAt.natAbs < 10 ^ 15) : WF e := by
  unfold clientParse at hp
  simp only [gt_iff_lt, Nat.lt_irrefl, if_false] at hp
  cases hd : parse t with
  | none => simp [hd] at hp
  | some root =>
    simp only [hd] at hp
    obtain ⟨hc, hh⟩ := parse_cstrs hd
    have key : ∃ s, fromJson h.P h.b h.cfg s = .ok e := by
      unfold ofRoot at hp
      split at hp
      · cases hp
      · cases hp
      · split at hp
        · cases hp
        · have harg : ∀ args x, eventArg h.P h.b h.r h.cfg args = .ok x → ∃ s, fromJson h.P h.b h.cfg s = .ok x := by
            intro args x hx
            unfold eventArg at hx
            split at hx
            · cases hx
            · split at hx
              · rename_i j _ y hy; cases hx; exact ⟨_, hy⟩
              · cases hx
              · cases hx
          repeat' split at hp
          all_goals first
            | (obtain ⟨x, hx, hp⟩ := Res.bind_eq_ok.1 hp; simp only [Res.ok.injEq, ClientMsg.event.injEq] at hp; subst hp; exact harg _ _ hx)
            | (obtain ⟨x, hx, hp⟩ := Res.bind_eq_ok.1 hp; first | (simp at hp; done) | (obtain ⟨y, hy, hp⟩ := Res.bind_eq_ok.1 hp; simp at hp))
            | simp at hp
    obtain ⟨s, hs⟩ := key
    obtain ⟨⟨l1, l2, l3, l4⟩, -⟩ := Event.Props.C116_lengths _ _ _ _ _ hs
    unfold fromJson Host.b at hs
    simp only at hs
    cases hq : parse s with
    | none => simp [hq] at hs
    | some j =>
      simp only [hq] at hs
      obtain ⟨s1, s2⟩ := fromTree_strings (parse_cstrs hq).1 hs
      exact ⟨l1, l2, l3, by omega, l4, s1, s2⟩

/-! ## C198 -/

/-- **C198** (partial: times below 10^15, ids of up to 64 characters): an event signed by an author and sent to a relay that keeps to the library's
calls is handed to each subscription whose filters match it; when the text arrives at the subscriber, in whatever chunks and after whatever
history, exactly one callback is made: that of the latest subscription with this id, with the author's event, and its signature verifies there.
The three hosts may differ in their limits and platforms. -/
theorem C198_delivered_partial {C : Crypto} (hC : Event.Props.CryptoOK C) {author relay client : Host} (hr : Renum relay.r) (hc : Renum client.r)
    {rand : Option Bytes} {sk : Bytes} {draft e : Event} (hs : sign C author.b rand sk draft = .ok e) (w : WF e)
    (ht : e.createdAt.natAbs < 10 ^ 15) (ha : relay.Admits e) (ha' : client.Admits e) (open_ : List (Bytes × List Filter)) {id : Bytes}
    {fs : List Filter} (ho : (id, fs) ∈ open_) (hm : filtersMatch fs e = true) (hid : CStr id) (hl : id.length ≤ 64) (hasCb : Bool)
    (past : List Relay.Spec.Op) {cb : Nat} (hcb : (Relay.Spec.stack id past).head? = some (some cb)) :
    ∃ t n, Relay.sendEvent author.b e = .ok t ∧ ∀ k, n < k → ∃ m, (id, m) ∈ forward C relay k open_ t ∧
      ∀ cs chunk, cs.flatten = m → (∀ c ∈ cs, c.length ≤ chunk) → m.length + chunk + 1024 ≤ 10485760 →
        arrive client hasCb past cs = some [.event cb (delivered e)] ∧ SameSigned (delivered e) e ∧ (delivered e).id = e.id ∧
          (delivered e).sig = e.sig ∧ verify C client.b (delivered e) = .ok () := by
  obtain ⟨t, h1, -⟩ := sent (a := author) w ht
  have hv := (Event.Props.C19_signed_verifies hC hs).1
  have wd := wf_delivered w
  have td : (delivered e).createdAt.natAbs < 10 ^ 15 := ht
  refine ⟨t, (text relay id (delivered e)).length, h1, fun k hk => ⟨text relay id (delivered e), ?_, ?_⟩⟩
  · unfold forward
    rw [read_sent hr w ht ha h1]
    simp only
    rw [if_pos ((verify_delivered C relay.b e).2 (by rw [verify_host relay author w ht]; exact hv))]
    refine List.mem_filterMap.2 ⟨(id, fs), List.mem_filter.2 ⟨ho, by simpa [matches_delivered] using hm⟩, ?_⟩
    rw [message_text hr hl wd td, if_pos hk]
    rfl
  · intro cs chunk h2 h3 h4
    obtain ⟨ht1, ht2⟩ := text_array (h := relay) hid wd td
    refine ⟨?_, ⟨rfl, rfl, rfl, rfl, rfl⟩, rfl, rfl, (verify_delivered C client.b e).2 (by rw [verify_host client author w ht]; exact hv)⟩
    rw [arrive_text client hasCb past ht1 h4 cs h2 h3]
    have hmem := (Relay.Props.C90_routing hc client.td client.fr client.cfg hasCb past (text relay id (delivered e)) cb (delivered e)).2
      ⟨id, _, [], ht2, hcb, by
        rw [mapNum_toTree hc relay.td relay.fr wd td]; exact fromTree_back client.P client.cfg relay.td relay.fr wd td ha'⟩
    have hone := Relay.Props.C90_once client.P client.b client.cfg client.r hasCb
      (Relay.Props.subsAfter client.P client.b client.cfg client.r hasCb past) (text relay id (delivered e))
    unfold Host.b at hone ⊢
    generalize (Relay.Props.step client.P (.cjson client.td client.fr) client.cfg client.r hasCb
      (Relay.Props.subsAfter client.P (.cjson client.td client.fr) client.cfg client.r hasCb past) (.text (text relay id (delivered e)))).2 = l at *
    match l, hone with
    | [], _ => cases hmem
    | [x], _ => rw [List.mem_singleton] at hmem; rw [hmem]
    | _ :: _ :: _, h => simp only [List.length_cons] at h; omega

/-- **C198** (partial, as above): the relay sends the event to exactly the subscriptions whose filters match, once for each and in their order. -/
theorem C198_recipients_partial {C : Crypto} {author relay : Host} (hr : Renum relay.r) {e : Event}
    (hv : verify C author.b e = .ok ()) (w : WF e) (ht : e.createdAt.natAbs < 10 ^ 15) (ha : relay.Admits e)
    (open_ : List (Bytes × List Filter)) (hopen : ∀ s ∈ open_, s.1.length ≤ 64) :
    ∃ t n, Relay.sendEvent author.b e = .ok t ∧ ∀ k, n < k →
      (forward C relay k open_ t).map Prod.fst = (open_.filter fun s => filtersMatch s.2 e).map Prod.fst := by
  obtain ⟨t, h1, -⟩ := sent (a := author) w ht
  have wd := wf_delivered w
  have td : (delivered e).createdAt.natAbs < 10 ^ 15 := ht
  refine ⟨t, (open_.map fun s => (text relay s.1 (delivered e)).length).sum, h1, fun k hk => ?_⟩
  unfold forward
  rw [read_sent hr w ht ha h1]
  simp only
  rw [if_pos ((verify_delivered C relay.b e).2 (by rw [verify_host relay author w ht]; exact hv))]
  simp only [matches_delivered]
  clear h1
  induction open_ with
  | nil => rfl
  | cons s l ih =>
    simp only [List.map_cons, List.sum_cons] at hk
    have h2 := ih (fun s hs => hopen s (by simp [hs])) (by omega)
    rw [List.filter_cons]
    split
    · rw [List.filterMap_cons, message_text hr (hopen s (by simp)) wd td, if_pos (by omega)]
      simp only [Option.map_some, List.map_cons, h2]
    · exact h2

/-- **C198**, the other direction (partial: times below 10^15): whatever text the relay receives, an event callback that a client makes for a text the
relay sent on its account is made with an event whose signature verifies, for a subscription that the relay has and whose filters match it. -/
theorem C198_only_verified_partial {C : Crypto} {relay client : Host} (hr : Renum relay.r) (hc : Renum client.r) (t : Bytes) (k : Nat)
    (open_ : List (Bytes × List Filter)) (hopen : ∀ s ∈ open_, CStr s.1 ∧ s.1.length ≤ 64)
    (ht : ∀ e, clientParse relay.P relay.b relay.r relay.cfg t 0 = .ok (.event e) → e.createdAt.natAbs < 10 ^ 15) {id m : Bytes}
    (hf : (id, m) ∈ forward C relay k open_ t) (hasCb : Bool) (past : List Relay.Spec.Op) {chunk : Nat} (cs : List Bytes)
    (hcs : cs.flatten = m) (hC : ∀ c ∈ cs, c.length ≤ chunk) (hfit : m.length + chunk + 1024 ≤ 10485760) {calls : List Relay.Call}
    (hcalls : arrive client hasCb past cs = some calls) {cb : Nat} {e : Event} (he : Relay.Call.event cb e ∈ calls) :
    verify C client.b e = .ok () ∧ (∃ fs, (id, fs) ∈ open_ ∧ filtersMatch fs e = true) ∧
      (Relay.Spec.stack id past).head? = some (some cb) ∧ calls.length = 1 := by
  unfold forward at hf
  split at hf
  · rename_i x hx
    have tx := ht x hx
    have wx := parsed_wf hr hx tx
    split at hf
    · rename_i hv
      obtain ⟨s, hs, hm⟩ := List.mem_filterMap.1 hf
      obtain ⟨hs, hmatch⟩ := List.mem_filter.1 hs
      obtain ⟨o1, o2⟩ := hopen s hs
      rw [message_text hr o2 wx tx] at hm
      by_cases hk : (text relay s.1 x).length < k
      · rw [if_pos hk] at hm
        simp only [Option.map_some, Option.some.injEq, Prod.mk.injEq] at hm
        obtain ⟨rfl, rfl⟩ := hm
        obtain ⟨h1, h2⟩ := text_array (h := relay) o1 wx tx
        rw [arrive_text client hasCb past h1 hfit cs hcs hC] at hcalls
        cases hcalls
        have hlen := Relay.Props.C90_once client.P client.b client.cfg client.r hasCb
          (Relay.Props.subsAfter client.P client.b client.cfg client.r hasCb past) (text relay s.1 x)
        have hpos := List.length_pos_iff.2 (List.ne_nil_of_mem he)
        unfold Host.b at he
        obtain ⟨id', ev, rest, h3, h4, h5⟩ := (Relay.Props.C90_routing hc client.td client.fr client.cfg hasCb past _ cb e).1 he
        rw [h2] at h3
        simp only [Option.some.injEq, Json.arr.injEq, List.cons.injEq, Json.str.injEq, true_and] at h3
        obtain ⟨rfl, rfl, -⟩ := h3
        rw [mapNum_toTree hc relay.td relay.fr wx tx] at h5
        have h6 := fromTree_unlimited h5
        rw [fromTree_back client.P none relay.td relay.fr wx tx (by intro c hc; cases hc)] at h6
        cases h6
        exact ⟨(verify_delivered C client.b x).2 (by rw [verify_host client relay wx tx]; exact hv), ⟨s.2, hs, hmatch⟩, h4, by omega⟩
      · rw [if_neg hk] at hm; cases hm
    · cases hf
  · cases hf

/-! Non-trivial cases: a signed note, two subscriptions of which one matches. -/

/-- A host for the examples. -/
def host : Host := ⟨⟨fun _ => 0, false⟩, id, fun _ => [], Msg.Props.toyRenum fun _ => 0, none⟩

/-- The note of the examples, signed by the toy scheme with the key `7…7`. -/
def signed : Res Event := sign Event.Props.toyCrypto host.b (some []) (List.replicate 32 7) { Event.zero with kind := 1, createdAt := 1700000000, tags := [[c!"t", c!"x"]], content := some (c!"hi") }

example : ∃ e, signed = .ok e ∧ WF e ∧ e.createdAt.natAbs < 10 ^ 15 ∧ host.Admits e ∧ filtersMatch [{ Filter.empty with kinds := [1] }] e = true ∧
    filtersMatch [{ Filter.empty with kinds := [7] }] e = false := by
  refine ⟨_, rfl, ⟨by decide +kernel, by decide +kernel, by decide +kernel, by decide +kernel, by decide +kernel, ?_, by decide +kernel⟩, by decide +kernel,
    (by intro c hc; cases hc), by decide +kernel, by decide +kernel⟩
  decide +kernel
example : Renum host.r := Msg.Props.toy_renum
example : (Relay.Spec.stack (c!"a") [.subscribe (c!"a") (some 3)]).head? = some (some 3) := by decide
/-- The whole way, computed: of the two subscriptions the first is served, and its client makes the one callback, with the text arriving in two pieces. -/
example : (match signed with
    | .ok e => match Relay.sendEvent host.b e with
      | .ok t => match forward Event.Props.toyCrypto host 4096
            [(c!"a", [{ Filter.empty with kinds := [1] }]), (c!"b", [{ Filter.empty with kinds := [7] }])] t with
          | [(i, m)] => decide (i = c!"a") && decide (arrive host true [.subscribe (c!"a") (some 3)] [m.take 100, m.drop 100] = some [.event 3 e])
          | _ => false
      | _ => false
    | _ => false) = true := by decide +kernel

/-- **C198**, the way there (partial: ids of up to 64 printable ASCII characters, filters with numbers that cJSON prints as they are): the request that a
client sends for a filter is read by the relay as a request with the same id and that filter. -/
theorem C198_request_partial {relay : Host} (hr : Renum relay.r) (subs : List Relay.Sub) {id : Bytes} (hid : Msg.Spec.SubId id) (cb : Option Nat)
    (fmt : Bool) {j : Json} (hg : Good j) (hh : height j < nestingLimit) (hn : Msg.Spec.Holds relay.P.real relay.r j) {f : Filter}
    (hf : ofTree relay.P.real j = .ok f) (hval : (validate f).1 = .ok ()) {subs' : List Relay.Sub} {t : Bytes}
    (hs : Relay.subscribe subs id (print fmt 0 j) cb = .ok (subs', t)) :
    subs' = ⟨id, cb⟩ :: subs ∧ clientParse relay.P relay.b relay.r relay.cfg t 0 = .ok (.req id [f]) := by
  obtain ⟨h1, h2⟩ := Relay.Props.C92_request_partial subs id cb fmt hg hh hs
  refine ⟨h1, ?_⟩
  refine ((Msg.Props.C31_parse_partial hr relay.td relay.fr relay.cfg t).2 _ h2 ?_ _).2 ?_
  · simp only [Msg.Spec.Holds, Msg.Spec.HoldsL]; exact ⟨trivial, trivial, hn, trivial⟩
  · exact .req hid (by simp) (.cons hf hval .nil)

/-- **C198 fails** for ids of 65 to 256 characters: the client accepts the subscription and registers it, and the relay refuses the request. -/
theorem C198_long_id_refuted {relay : Host} (n : Nat) (h1 : 65 ≤ n) (h2 : n ≤ 256) :
    ∃ subs t, Relay.subscribe [] (List.replicate n 0x61) (c!"{}") (some 7) = .ok (subs, t) ∧ subs = [⟨List.replicate n 0x61, some 7⟩] ∧
      clientParse relay.P relay.b relay.r relay.cfg t 0 = .err (.relay .invalidSubscriptionId) := by
  have hv : Relay.validSubId (List.replicate n 0x61) = true := by
    rw [Relay.Props.validSubId_iff]
    rw [List.length_replicate]
    refine ⟨by omega, fun c hc => ?_⟩
    rw [(List.mem_replicate.1 hc).2]
    decide
  have hp : parse (print false 0 (.obj [])) = some (.obj []) := by decide +kernel
  have hs : ∃ t, Relay.subscribe [] (List.replicate n 0x61) (print false 0 (.obj [])) (some 7) = .ok ([⟨List.replicate n 0x61, some 7⟩], t) := by
    simp only [Relay.subscribe, hv, Bool.not_true, Bool.false_eq_true, if_false, hp, Relay.reqText]
    rw [if_neg (by simp only [List.length_append, List.length_cons, List.length_nil]; omega)]
    exact ⟨_, rfl⟩
  obtain ⟨t, ht⟩ := hs
  obtain ⟨-, h4⟩ := Relay.Props.C92_request_partial [] (List.replicate n 0x61) (some 7) false (j := .obj []) (by simp [Good, GoodM]) (by decide) ht
  refine ⟨_, t, ht, rfl, ?_⟩
  have h5 : RelayProto.validateSubId (List.replicate n 0x61) = false := by
    unfold RelayProto.validateSubId
    simp
    omega
  simp [clientParse, h4, ofRoot, asArr, asStr, idArg, h5]

/-- **C198 fails** for late times: with cJSON's doubles, an event of time 5000000000000001 is read by the relay as one of time 5000000000000000. -/
theorem C198_time_refuted {relay : Host} {lax : Bool} (hp : relay.P = Double.plat lax) (hr : Renum relay.r)
    (h5 : relay.r (c!"5e+15") = .num (c!"5e+15")) {e : Event} (w : WF e) (ht : e.createdAt = 5000000000000001) (ha : relay.Admits e) :
    ∃ t, Relay.sendEvent Double.build e = .ok t ∧
      clientParse relay.P relay.b relay.r relay.cfg t 0 = .ok (.event { delivered e with createdAt := 5000000000000000 }) := by
  have hk := w.kind
  have hn : numTok Double.ofInt Double.format e.createdAt = c!"5e+15" := by rw [ht]; decide +kernel
  obtain ⟨g1, g0⟩ := good_toTree_num (td := Double.ofInt) (fr := Double.format) w (Double.tok_good (by rw [ht]; decide))
  have g2 := Relay.Props.height_toTree Double.ofInt Double.format e
  have hmap : mapNum relay.r (toTree Double.ofInt Double.format e) = toTree Double.ofInt Double.format e := by
    have hstr : ∀ l : List Bytes, mapNumL relay.r (l.map Json.str) = l.map Json.str := by
      intro l; rw [mapNumL_map, List.map_map]; apply List.map_congr_left; intro x _; simp [mapNum]
    have htags : mapNumL relay.r (e.tags.map fun t => .arr (t.map .str)) = e.tags.map fun t => .arr (t.map .str) := by
      rw [mapNumL_map, List.map_map]; apply List.map_congr_left; intro x _; simp [mapNum, hstr]
    simp only [toTree, mapNum, mapNumM, hn, numTok_small _ _ (n := (e.kind : Int)) (by omega), h5, hr.small (e.kind : Int) (by omega), htags]
  refine ⟨c!"[\"EVENT\"," ++ print true 0 (toTree Double.ofInt Double.format e) ++ c!"]", ?_, ?_⟩
  · simp only [Relay.sendEvent, Double.build, toJson, Res.bind_ok, Relay.eventText]
    rw [if_neg (by simp only [List.length_append, List.length_cons, List.length_nil]; omega)]
  · have hn' := need_le true (toTree Double.ofInt Double.format e) 0 g1
    obtain ⟨f, hf, e'⟩ := Relay.Props.parse_one (a := c!"EVENT") (by decide) (print true 0 (toTree Double.ofInt Double.format e) ++ c!"]")
    have et : ∀ x : Bytes, c!"[\"EVENT\"," ++ x ++ c!"]" = 0x5b :: quoted (c!"EVENT") ++ 0x2c :: (x ++ c!"]") := by
      intro x
      rw [show quoted (c!"EVENT") = c!"\"EVENT\"" by decide]
      simp
    have hd : parse (c!"[\"EVENT\"," ++ print true 0 (toTree Double.ofInt Double.format e) ++ c!"]") =
        some (.arr [.str (c!"EVENT"), toTree Double.ofInt Double.format e]) := by
      rw [et, e', Relay.Props.elems_last true 0 g1 (by simp only [nestingLimit]; omega) (f + 1)
        (by simp only [List.length_append] at hf; omega) []]
      rfl
    have h3 := parse_print false 0 _ g1 g0 [] (by simp [Stop])
    rw [List.append_nil] at h3
    have h6 : int64 Double.read (c!"5e+15") = 5000000000000000 := by decide +kernel
    have h7 : fromTree relay.P relay.cfg (toTree Double.ofInt Double.format e) = .ok { delivered e with createdAt := 5000000000000000 } := by
      rw [fromTree_num relay.P relay.cfg Double.ofInt Double.format w ha, hn, hp]
      simp only [Double.plat, h6]
      rfl
    simp only [clientParse, Nat.lt_irrefl, gt_iff_lt, if_false, hd, ofRoot, asArr, asStr, if_true, eventArg, fromJson, Host.b, reprint,
      hmap, h3, h7]
    rfl

example : Double.Props.exRenum (c!"5e+15") = .num (c!"5e+15") := by decide +kernel
example : WF { Event.Props.note with createdAt := 5000000000000001 } :=
  ⟨Event.Props.note_wf.id, Event.Props.note_wf.pubkey, Event.Props.note_wf.sig, by decide, Event.Props.note_wf.kind, Event.Props.note_wf.tags, Event.Props.note_wf.content⟩

end Nostr.Journey.Props
