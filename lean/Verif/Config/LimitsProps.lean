import Verif.Config.Limits
import Verif.Config.Spec
import Verif.Nip44.Props
import Verif.Event.Read
import Verif.Journey.MailProps

/-! # Property theorems: C203 - the limits that are configured -/

namespace Nostr.Config.Limits.Props
open Nostr Nostr.Event Nostr.Json Nostr.Config.Limits

variable {P : Plat} {b : Build}

/-! ## Tags -/

theorem addTag_le {cfg : Option Config} {e e' : Event} {vs : List Bytes} (h : addTag cfg e vs = .ok e') :
    ∀ c ∈ cfg, e'.tags.length ≤ c.maxTags := by
  unfold addTag at h
  by_cases h0 : vs = []
  · rw [if_pos h0] at h; cases h
  rw [if_neg h0] at h
  intro c hc
  cases hc
  by_cases h1 : c.maxTags ≤ e.tags.length
  · rw [if_pos (by simpa using h1)] at h; cases h
  · rw [if_neg (by simpa using h1)] at h
    cases h
    simp only [List.length_append, List.length_cons, List.length_nil]
    omega

theorem addTags_le {cfg : Option Config} : ∀ (l : List Json) {e e' : Event}, (∀ c ∈ cfg, e.tags.length ≤ c.maxTags) → addTags cfg e l = .ok e' →
    ∀ c ∈ cfg, e'.tags.length ≤ c.maxTags := by
  intro l
  induction l with
  | nil => intro e e' h0 h; simp only [addTags] at h; cases h; exact h0
  | cons j js ih =>
    intro e e' h0 h
    unfold addTags at h
    split at h
    · rename_i v vs _
      cases ha : addTag cfg e (tagValues (v :: vs)) with
      | ok e1 => simp only [ha] at h; exact ih (addTag_le ha) h
      | err _ => simp [ha] at h
      | ub => simp [ha] at h
    · exact ih h0 h

theorem addTags_content {cfg : Option Config} : ∀ (l : List Json) {e e' : Event}, addTags cfg e l = .ok e' → e'.content = e.content := by
  intro l
  induction l with
  | nil => intro e e' h; simp only [addTags] at h; cases h; rfl
  | cons j js ih =>
    intro e e' h
    unfold addTags at h
    split at h
    · split at h
      · rename_i h1
        rw [ih h]
        unfold addTag at h1
        split at h1
        · cases h1
        · split at h1
          · cases h1
          · cases h1; rfl
      · cases h
      · cases h
    · exact ih h

theorem tagsField_content {cfg : Option Config} {j : Json} {e e' : Event} (h : tagsField cfg j e = .ok e') : e'.content = e.content := by
  unfold tagsField at h
  split at h
  · cases h; rfl
  · split at h
    · cases h
    · exact addTags_content _ h

theorem fromTree_le {cfg : Option Config} {j : Json} {e : Event} (h : fromTree P cfg j = .ok e) :
    ∀ c ∈ cfg, e.tags.length ≤ c.maxTags ∧ e.text.length ≤ c.maxContent := by
  unfold fromTree at h
  obtain ⟨i, -, h⟩ := Res.bind_eq_ok.1 h
  obtain ⟨pk, -, h⟩ := Res.bind_eq_ok.1 h
  obtain ⟨t, ht, h⟩ := Res.bind_eq_ok.1 h
  obtain ⟨e1, h1, h⟩ := Res.bind_eq_ok.1 h
  obtain ⟨sg, -, h⟩ := Res.bind_eq_ok.1 h
  cases h
  have hk := tagsField_content h1
  intro c hc
  constructor
  · show e1.tags.length ≤ c.maxTags
    unfold tagsField at h1
    split at h1
    · cases h1; exact Nat.zero_le _
    · split at h1
      · cases h1
      · exact addTags_le _ (fun _ _ => Nat.zero_le _) h1 c hc
  · show (e1.content.getD []).length ≤ c.maxContent
    rw [hk]
    cases hc
    unfold contentField at ht
    split at ht
    · cases ht; exact Nat.zero_le _
    · rename_i s _
      by_cases hl : c.maxContent < s.length
      · rw [if_pos (by simpa using hl)] at ht; cases ht
      · rw [if_neg (by simpa using hl)] at ht
        cases ht
        exact Nat.le_of_not_lt hl

theorem fromJson_le {cfg : Option Config} {s : Bytes} {e : Event} (h : fromJson P b cfg s = .ok e) :
    ∀ c ∈ cfg, e.tags.length ≤ c.maxTags ∧ e.text.length ≤ c.maxContent := by
  unfold fromJson at h
  split at h
  · cases h
  · split at h
    · cases h
    · exact fromTree_le h

/-- One call keeps the number of tags within a limit that holds before and after. -/
theorem step_tags {n : Nat} {w : World} {o : Op} (h : w.event.tags.length ≤ n) (hc : ∃ c, w.cfg = some c ∧ c.maxTags ≤ n) :
    (step P b w o).event.tags.length ≤ n := by
  obtain ⟨c, hc, hn⟩ := hc
  cases o with
  | configure _ => exact h
  | content _ => exact h
  | fields _ _ _ _ _ => exact h
  | tag vs =>
    show (keep w.event (addTag w.cfg w.event vs)).tags.length ≤ n
    cases ha : addTag w.cfg w.event vs with
    | ok e => exact Nat.le_trans (addTag_le ha c hc) hn
    | err _ => exact h
    | ub => exact h
  | read s =>
    show (keep w.event (fromJson P b w.cfg s)).tags.length ≤ n
    cases ha : fromJson P b w.cfg s with
    | ok e => exact Nat.le_trans (fromJson_le ha c hc).1 hn
    | err _ => exact h
    | ub => exact h

/-- **C203, tags.** While the configurations in force allow at most `n` tags, an event has at most `n` tags, after any history of its content,
its tags, its fields, readings and changes of the configuration. -/
theorem C203_tags (n : Nat) (cfg : Option Config) (now : Int) (ops : List Op) (h : AtMost n cfg ops) :
    (run P b cfg now ops).event.tags.length ≤ n := by
  obtain ⟨h1, h2⟩ := h
  have key : ∀ (ops : List Op) (w : World), (∀ c, .configure c ∈ ops → c.maxTags ≤ n) → w.event.tags.length ≤ n →
      (∃ c, w.cfg = some c ∧ c.maxTags ≤ n) → (ops.foldl (step P b) w).event.tags.length ≤ n := by
    intro ops
    induction ops with
    | nil => intro w _ h _; exact h
    | cons o ops ih =>
      intro w hf h hc
      refine ih _ (fun c hm => hf c (List.mem_cons_of_mem _ hm)) (step_tags h hc) ?_
      cases o with
      | configure c => exact ⟨c, rfl, hf c (List.mem_cons_self ..)⟩
      | content _ => exact hc
      | fields _ _ _ _ _ => exact hc
      | tag _ => exact hc
      | read _ => exact hc
  exact key ops _ h2 (Nat.zero_le _) h1

/-- The limit is 2; of four tags, added with a change of the configuration between, two stay. -/
example : let d := { defaults with maxTags := 2 }
    AtMost 2 (some d) [.tag [c!"t", c!"a"], .tag [c!"t", c!"b"], .configure { d with debugMode := 1 }, .tag [c!"t", c!"c"], .tag [c!"t", c!"d"]] ∧
    (run ⟨fun _ => 0, true⟩ (.cjson id fun _ => []) (some d) 0
      [.tag [c!"t", c!"a"], .tag [c!"t", c!"b"], .configure { d with debugMode := 1 }, .tag [c!"t", c!"c"], .tag [c!"t", c!"d"]]).event.tags =
      [[c!"t", c!"a"], [c!"t", c!"b"]] := by
  refine ⟨⟨⟨_, rfl, Nat.le_refl _⟩, ?_⟩, by decide +kernel⟩
  intro c hc
  simp only [List.mem_cons, reduceCtorEq, Op.configure.injEq, List.not_mem_nil, or_false, false_or] at hc
  rw [hc]
  exact Nat.le_refl _

/-- **C203, reading.** An event that is read has no more tags and no longer content than the configuration allows. -/
theorem C203_read (cfg : Option Config) (s : Bytes) (e : Event) (h : fromJson P b cfg s = .ok e) :
    ∀ c ∈ cfg, e.tags.length ≤ c.maxTags ∧ e.text.length ≤ c.maxContent := fromJson_le h

example : Eq true <| match fromJson ⟨fun _ => 0, true⟩ (.cjson id fun _ => []) (some { defaults with maxContent := 5 })
      (c!"{\"content\":\"hello\"}"), fromJson ⟨fun _ => 0, true⟩ (.cjson id fun _ => []) (some { defaults with maxContent := 4 })
      (c!"{\"content\":\"hello\"}") with
    | .ok e, .err .invalidParam => decide (e.text = c!"hello")
    | _, _ => false := by decide +kernel

/-! ## What the library itself writes -/

/-- What holds of the event after any history. -/
def Inv (e : Event) : Prop :=
  e.id.length = 32 ∧ e.pubkey.length = 32 ∧ e.sig.length = 64 ∧ e.kind < 65536 ∧ (∀ t ∈ e.tags, t ≠ [] ∧ ∀ v ∈ t, CStr v) ∧ CStr e.text

theorem step_inv {w : World} {o : Op} (h : Inv w.event) (ho : Proper o) : Inv (step P b w o).event := by
  obtain ⟨h1, h2, h3, h4, h5, h6⟩ := h
  cases o with
  | configure _ => exact ⟨h1, h2, h3, h4, h5, h6⟩
  | content t => exact ⟨h1, h2, h3, h4, h5, ho⟩
  | fields i pk t k s => exact ⟨ho.1, ho.2.1, ho.2.2.1, ho.2.2.2, h5, h6⟩
  | tag vs =>
    show Inv (keep w.event (addTag w.cfg w.event vs))
    cases ha : addTag w.cfg w.event vs with
    | ok e =>
      unfold addTag at ha
      by_cases h0 : vs = []
      · rw [if_pos h0] at ha; cases ha
      rw [if_neg h0] at ha
      split at ha
      · cases ha
      · cases ha
        refine ⟨h1, h2, h3, h4, ?_, h6⟩
        intro t ht
        rcases List.mem_append.1 ht with ht | ht
        · exact h5 t ht
        · rw [List.mem_singleton] at ht
          rw [ht]
          exact ⟨h0, ho⟩
    | err _ => exact ⟨h1, h2, h3, h4, h5, h6⟩
    | ub => exact ⟨h1, h2, h3, h4, h5, h6⟩
  | read s =>
    show Inv (keep w.event (fromJson P b w.cfg s))
    cases ha : fromJson P b w.cfg s with
    | ok e =>
      have hl := (Event.Props.C116_lengths P b w.cfg s e ha).1
      unfold fromJson at ha
      split at ha
      · cases ha
      · split at ha
        · cases ha
        · rename_i hp
          have hs := Journey.Props.fromTree_strings (parse_cstrs hp).1 ha
          exact ⟨hl.1, hl.2.1, hl.2.2.1, hl.2.2.2, hs.1, hs.2⟩
    | err _ => exact ⟨h1, h2, h3, h4, h5, h6⟩
    | ub => exact ⟨h1, h2, h3, h4, h5, h6⟩

theorem run_inv {cfg : Option Config} {now : Int} {ops : List Op} (ho : ∀ o ∈ ops, Proper o) : Inv (run P b cfg now ops).event := by
  have key : ∀ (ops : List Op) (w : World), (∀ o ∈ ops, Proper o) → Inv w.event → Inv (ops.foldl (step P b) w).event := by
    intro ops
    induction ops with
    | nil => intro w _ h; exact h
    | cons o ops ih =>
      intro w hf h
      exact ih _ (fun o hm => hf o (List.mem_cons_of_mem _ hm)) (step_inv h (hf o (List.mem_cons_self ..)))
  refine key ops _ ho ⟨by simp [zero], by simp [zero], by simp [zero], by simp [zero], ?_, by simp [zero, Event.text, CStr]⟩
  intro t ht
  cases ht

/-- Too many tags are refused. -/
theorem fromTree_tags (td : Int → Int) (fr : Int → Bytes) {c : Config} {e : Event} (w : Event.Spec.WF e)
    (hl : e.text.length ≤ c.maxContent) (hc : c.maxTags < e.tags.length) : fromTree P (some c) (toTree td fr e) = .err .invalidParam := by
  have g1 : get (toTree td fr e) (c!"id") = some (.str (Hex.hexEncode e.id)) := by rfl
  have g2 : get (toTree td fr e) (c!"pubkey") = some (.str (Hex.hexEncode e.pubkey)) := by rfl
  have g3 : get (toTree td fr e) (c!"content") = some (.str e.text) := by rfl
  have g4 : get (toTree td fr e) (c!"tags") = some (.arr (e.tags.map fun t => .arr (t.map .str))) := by rfl
  have hl' : decide (e.text.length > c.maxContent) = false := by simpa using hl
  have hc' : decide ((e.tags.map fun t => Json.arr (t.map .str)).length > c.maxTags) = true := by simpa using hc
  unfold fromTree
  simp only [hexField, g1, g2, Option.bind_some, asStr, hexToBytes_encode P.lax0x w.id, hexToBytes_encode P.lax0x w.pubkey, Res.bind_ok,
    contentField, g3, Option.any_some, hl', tagsField, g4, asArr, hc', if_true, Bool.false_eq_true, if_false, Res.bind_err]

/-- An event of the library in JSON is read back exactly if it is within the limits of the reader. -/
theorem back_iff (td : Int → Int) (fr : Int → Bytes) {cfg : Option Config} {e : Event} (w : Event.Spec.WF e) (ht : e.createdAt.natAbs < 10 ^ 15) :
    ∃ s, toJson (.cjson td fr) e = .ok s ∧
      ((∀ c ∈ cfg, e.tags.length ≤ c.maxTags ∧ e.text.length ≤ c.maxContent) →
        fromJson P (.cjson td fr) cfg s = .ok { e with content := some e.text }) ∧
      (¬ (∀ c ∈ cfg, e.tags.length ≤ c.maxTags ∧ e.text.length ≤ c.maxContent) →
        fromJson P (.cjson td fr) cfg s = .err .invalidParam) := by
  refine ⟨_, rfl, ?_⟩
  obtain ⟨g1, g2⟩ := good_toTree (td := td) (fr := fr) w ht
  have h1 := parse_print true 0 _ g1 g2 [] (by simp [Stop])
  rw [List.append_nil] at h1
  simp only [fromJson, h1]
  refine ⟨fun hc => fromTree_back P cfg td fr w ht hc, fun hc => ?_⟩
  cases cfg with
  | none => exact absurd (by simp) hc
  | some c =>
    by_cases hl : c.maxContent < e.text.length
    · exact Journey.Mail.Props.fromTree_refused P td fr w ⟨c, rfl, hl⟩
    · refine fromTree_tags td fr w (Nat.le_of_not_lt hl) (Nat.lt_of_not_le fun hn => hc ?_)
      intro c' hc'
      cases hc'
      exact ⟨hn, Nat.le_of_not_lt hl⟩

theorem run_cfg {cfg : Option Config} {now : Int} {ops : List Op} (hf : Fixed ops) : (run P b cfg now ops).cfg = cfg := by
  have key : ∀ (ops : List Op) (w : World), Fixed ops → (ops.foldl (step P b) w).cfg = w.cfg := by
    intro ops
    induction ops with
    | nil => intro w _; rfl
    | cons o ops ih =>
      intro w hf
      rw [List.foldl_cons, ih _ fun c hm => hf c (List.mem_cons_of_mem _ hm)]
      cases o with
      | configure c => exact absurd (List.mem_cons_self ..) (hf c)
      | content _ => rfl
      | fields _ _ _ _ _ => rfl
      | tag _ => rfl
      | read _ => rfl
  exact key ops _ hf

/-- **C203, what the library writes it reads** (partial: only if the content is within the limit, which nothing checks before; times of fewer
than 16 digits). After any history under one configuration, the JSON text of the event is read back by the same library, with the same
fields, if the content is no longer than the limit - and is refused as an invalid parameter if it is longer. The number of tags and the
number of values are no obstacle. -/
theorem C203_own_partial (td : Int → Int) (fr : Int → Bytes) (cfg : Option Config) (now : Int) (ops : List Op) (hf : Fixed ops)
    (ho : ∀ o ∈ ops, Proper o) (ht : (run P (.cjson td fr) cfg now ops).event.createdAt.natAbs < 10 ^ 15) :
    ∃ s, toJson (.cjson td fr) (run P (.cjson td fr) cfg now ops).event = .ok s ∧
      ((∀ c ∈ cfg, (run P (.cjson td fr) cfg now ops).event.text.length ≤ c.maxContent) →
        fromJson P (.cjson td fr) cfg s =
          .ok { (run P (.cjson td fr) cfg now ops).event with content := some (run P (.cjson td fr) cfg now ops).event.text }) ∧
      ((∃ c ∈ cfg, c.maxContent < (run P (.cjson td fr) cfg now ops).event.text.length) →
        fromJson P (.cjson td fr) cfg s = .err .invalidParam) := by
  obtain ⟨i1, i2, i3, i4, i5, i6⟩ := run_inv (P := P) (b := .cjson td fr) (cfg := cfg) (now := now) ho
  have w : Event.Spec.WF (run P (.cjson td fr) cfg now ops).event := ⟨i1, i2, i3, by omega, i4, i5, i6⟩
  obtain ⟨s, h1, h2, h3⟩ := back_iff (P := P) td fr (cfg := cfg) w ht
  refine ⟨s, h1, fun hc => h2 fun c hm => ⟨?_, hc c hm⟩, fun ⟨c, hm, hl⟩ => h3 fun hc => ?_⟩
  · exact C203_tags c.maxTags cfg now ops ⟨⟨c, hm, Nat.le_refl _⟩, fun c' hm' => absurd hm' (hf c')⟩
  · have := (hc c hm).2
    omega

/-- An event with a tag and content at the limit, and one above it. -/
example : let d := { defaults with maxContent := 5 }
    let ops := fun t => [Op.tag [c!"t", c!"a"], .content t, .tag [], .read (c!"{"), .tag [c!"e"]]
    Fixed (ops (c!"hello")) ∧ (∀ o ∈ ops (c!"hello"), Proper o) ∧
    (run ⟨fun _ => 0, true⟩ (.cjson id fun _ => []) (some d) 1700000000 (ops (c!"hello"))).event.createdAt.natAbs < 10 ^ 15 ∧
    (run ⟨fun _ => 0, true⟩ (.cjson id fun _ => []) (some d) 1700000000 (ops (c!"hello"))).event.tags = [[c!"t", c!"a"], [c!"e"]] ∧
    (run ⟨fun _ => 0, true⟩ (.cjson id fun _ => []) (some d) 1700000000 (ops (c!"hello!"))).event.text.length = 6 := by
  refine ⟨?_, ?_, by decide +kernel, by decide +kernel, by decide +kernel⟩
  · intro c hc
    simp at hc
  · intro o ho
    simp only [List.mem_cons, List.not_mem_nil, or_false] at ho
    rcases ho with rfl | rfl | rfl | rfl | rfl <;> simp [Proper] <;> decide

/-- **C203, content.** Content above the limit is accepted by `nostr_event_set_content`, and written by `nostr_event_to_json`; the same
library then refuses to read the text: for every configuration and every text that is longer than its limit. -/
theorem C203_content_refuted (td : Int → Int) (fr : Int → Bytes) (c : Config) (t : Bytes) (ht : CStr t) (hl : c.maxContent < t.length) (now : Int)
    (hn : now.natAbs < 10 ^ 15) :
    (run P (.cjson td fr) (some c) now [.content t]).event.text = t ∧
    ∃ s, toJson (.cjson td fr) (run P (.cjson td fr) (some c) now [.content t]).event = .ok s ∧
      fromJson P (.cjson td fr) (some c) s = .err .invalidParam := by
  have h0 : (run P (.cjson td fr) (some c) now [.content t]).event.text = t := rfl
  refine ⟨h0, ?_⟩
  obtain ⟨s, h1, -, h3⟩ := C203_own_partial (P := P) td fr (some c) now [.content t] (by intro c hc; simp at hc)
    (by intro o ho; rw [List.mem_singleton] at ho; rw [ho]; exact ht) hn
  exact ⟨s, h1, h3 ⟨c, rfl, by rw [h0]; exact hl⟩⟩

example : CStr (List.replicate 65537 0x61) ∧ defaults.maxContent < (List.replicate 65537 (0x61 : UInt8)).length := by
  refine ⟨?_, by rw [List.length_replicate]; decide⟩
  intro h
  exact absurd (List.eq_of_mem_replicate h) (by decide)

/-- **C203, values.** The limit of the values of a tag is not kept: a tag of any number of values is added, written and read back, whatever
the limit is. -/
theorem C203_values_refuted (td : Int → Int) (fr : Int → Bytes) (c : Config) (hc : 1 ≤ c.maxTags) (vs : List Bytes) (hv : ∀ v ∈ vs, CStr v)
    (hl : c.maxTagValues < vs.length) (now : Int) (hn : now.natAbs < 10 ^ 15) :
    ∃ s e, toJson (.cjson td fr) (run P (.cjson td fr) (some c) now [.tag vs]).event = .ok s ∧
      fromJson P (.cjson td fr) (some c) s = .ok e ∧ e.tags = [vs] := by
  have h0 : (run P (.cjson td fr) (some c) now [.tag vs]).event = { zero with createdAt := now, tags := [vs] } := by
    show keep _ (addTag (some c) _ vs) = _
    have hne : vs ≠ [] := by rintro rfl; simp at hl
    unfold addTag
    rw [if_neg hne, if_neg (by simp [zero]; omega)]
    rfl
  obtain ⟨s, h1, h2, -⟩ := C203_own_partial (P := P) td fr (some c) now [.tag vs] (by intro c hc; simp at hc)
    (by intro o ho; rw [List.mem_singleton] at ho; rw [ho]; exact hv) (by rw [h0]; exact hn)
  refine ⟨s, _, h1, h2 (by intro _ _; rw [h0]; exact Nat.zero_le _), ?_⟩
  rw [h0]

example : 1 ≤ defaults.maxTags ∧ (∀ v ∈ List.replicate 51 (c!"x"), CStr v) ∧ defaults.maxTagValues < (List.replicate 51 (c!"x")).length := by
  decide

/-- **C203, without a configuration.** The defaults are not limits: an application that initialises the library without a configuration has
events of any number of tags, which are written and read back. -/
theorem C203_unconfigured_refuted (td : Int → Int) (fr : Int → Bytes) (v : Bytes) (hv : CStr v) (n : Nat) (now : Int) (hn : now.natAbs < 10 ^ 15) :
    ∃ s e, toJson (.cjson td fr) (run P (.cjson td fr) none now (List.replicate n (.tag [v]))).event = .ok s ∧
      fromJson P (.cjson td fr) none s = .ok e ∧ e.tags.length = n := by
  have key : ∀ (n : Nat) (e : Event), (List.replicate n (Op.tag [v])).foldl (step P (.cjson td fr)) ⟨none, e⟩ =
      ⟨none, { e with tags := e.tags ++ List.replicate n [v] }⟩ := by
    intro n
    induction n with
    | zero => intro e; simp
    | succ n ih =>
      intro e
      have h1 : step P (.cjson td fr) ⟨none, e⟩ (.tag [v]) = ⟨none, { e with tags := e.tags ++ [[v]] }⟩ := rfl
      rw [List.replicate_succ, List.foldl_cons, h1, ih]
      simp [List.replicate_succ]
  have h0 : (run P (.cjson td fr) none now (List.replicate n (.tag [v]))).event =
      { zero with createdAt := now, tags := List.replicate n [v] } := by
    unfold run
    rw [key]
    simp [zero]
  obtain ⟨s, h1, h2, -⟩ := C203_own_partial (P := P) td fr none now (List.replicate n (.tag [v]))
    (by intro c hc; exact absurd (List.eq_of_mem_replicate hc) (by simp))
    (by intro o ho; rw [List.eq_of_mem_replicate ho]; intro x hx; rw [List.mem_singleton] at hx; rw [hx]; exact hv) (by rw [h0]; exact hn)
  refine ⟨s, _, h1, h2 (by intro c hc; cases hc), ?_⟩
  rw [h0]
  simp

/-- **C203, lower limits later.** A limit on tags that is lowered does not reach the events that exist, and the library then refuses to read
what it writes of them. -/
theorem C203_lowered_refuted (td : Int → Int) (fr : Int → Bytes) (c : Config) (v : Bytes) (hv : CStr v) (hc : 2 ≤ c.maxTags) (now : Int)
    (hn : now.natAbs < 10 ^ 15) :
    let w := run P (.cjson td fr) (some c) now [.tag [v], .tag [v], .configure { c with maxTags := 1 }]
    w.cfg = some { c with maxTags := 1 } ∧ w.event.tags.length = 2 ∧
    ∃ s, toJson (.cjson td fr) w.event = .ok s ∧ fromJson P (.cjson td fr) w.cfg s = .err .invalidParam := by
  have a1 : addTag (some c) { zero with createdAt := now } [v] = .ok { zero with createdAt := now, tags := [[v]] } := by
    unfold addTag
    rw [if_neg (by simp), if_neg (by simp [zero]; omega)]
    rfl
  have a2 : addTag (some c) { zero with createdAt := now, tags := [[v]] } [v] = .ok { zero with createdAt := now, tags := [[v], [v]] } := by
    unfold addTag
    rw [if_neg (by simp), if_neg (by simp; omega)]
    rfl
  have h0 : run P (.cjson td fr) (some c) now [.tag [v], .tag [v], .configure { c with maxTags := 1 }] =
      ⟨some { c with maxTags := 1 }, { zero with createdAt := now, tags := [[v], [v]] }⟩ := by
    simp only [run, List.foldl_cons, List.foldl_nil, step, a1, keep, a2]
  have i := run_inv (P := P) (b := .cjson td fr) (cfg := some c) (now := now) (ops := [.tag [v], .tag [v], .configure { c with maxTags := 1 }]) (by
    intro o ho
    simp only [List.mem_cons, List.not_mem_nil, or_false] at ho
    rcases ho with rfl | rfl | rfl
    · simpa [Proper] using hv
    · simpa [Proper] using hv
    · trivial)
  rw [h0] at i
  obtain ⟨i1, i2, i3, i4, i5, i6⟩ := i
  rw [h0]
  refine ⟨rfl, rfl, ?_⟩
  obtain ⟨s, h1, -, h3⟩ := back_iff (P := P) td fr (cfg := some { c with maxTags := 1 }) (e := { zero with createdAt := now, tags := [[v], [v]] })
    ⟨i1, i2, i3, by simp only; omega, i4, i5, i6⟩ hn
  refine ⟨s, h1, h3 fun hc => ?_⟩
  have := (hc _ rfl).1
  simp at this

/-! ## Plaintexts -/

open Nostr.Nip44 in
/-- **C203, plaintexts.** What is encrypted is within the two limits; what is decrypted is not empty and within the upper one. -/
theorem C203_plaintext (N : Nc) (B : B64) (c : Config) (nonce : Option Bytes) (sk pk : Bytes) :
    (∀ m t, encrypt N B (some c) nonce sk pk m = .ok t → c.nip44Min ≤ m.length ∧ m.length ≤ c.nip44Max) ∧
    (∀ t m, decrypt N B (some c) sk pk t = .ok m → 1 ≤ m.length ∧ m.length ≤ c.nip44Max) := by
  constructor
  · intro m t h
    unfold encrypt at h
    cases nonce with
    | none => cases h
    | some n =>
      simp only at h
      obtain ⟨p, hp, -⟩ := Res.bind_eq_ok.1 h
      unfold pad at hp
      split at hp
      · cases hp
      · rename_i hl
        simp only [minSize, maxSize, Option.elim_some] at hl
        omega
  · intro t m h
    have hu : ∀ p, unpad (some c) p = .ok m → 1 ≤ m.length ∧ m.length ≤ c.nip44Max := by
      intro p hp
      unfold unpad at hp
      split at hp
      · rename_i b0 b1 rest
        have hm : maxSize (some c) = c.nip44Max := rfl
        simp only [] at hp
        by_cases c1 : b0.toNat * 256 + b1.toNat = 0 ∨ b0.toNat * 256 + b1.toNat > maxSize (some c)
        · rw [if_pos c1] at hp; cases hp
        rw [if_neg c1] at hp
        by_cases c2 : (b0 :: b1 :: rest).length ≠ 2 + paddedLen (b0.toNat * 256 + b1.toNat)
        · rw [if_pos c2] at hp; cases hp
        rw [if_neg c2] at hp
        by_cases c3 : b0.toNat * 256 + b1.toNat > rest.length
        · rw [if_pos c3] at hp; cases hp
        rw [if_neg c3] at hp
        cases hp
        rw [List.length_take]
        omega
      · cases hp
    unfold decrypt at h
    split at h
    · cases h
    split at h
    · cases h
    unfold decryptPayload at h
    split at h
    · cases h
    split at h
    · cases h
    simp only at h
    split at h
    · cases h
    split at h
    · cases h
    exact hu _ h

open Nostr.Nip44 Nostr.Nip44.Props in
example : ∃ t, encrypt toyNc toyB64 (some { defaults with nip44Min := 5, nip44Max := 5 }) (some (List.replicate 32 1)) [1] [4] (c!"hello") = .ok t ∧
    decrypt toyNc toyB64 (some { defaults with nip44Min := 5, nip44Max := 5 }) [3] [2] t = .ok (c!"hello") := by
  refine ⟨_, rfl, ?_⟩
  decide +kernel

open Nostr.Nip44 Nostr.Nip44.Spec in
/-- **C203, the lower limit of plaintexts** is not kept when decrypting: whatever its value, a shorter message is decrypted. -/
theorem C203_min_refuted (N : Nc) (B : B64) (a pa b' pb : Bytes) (hN : NcOK N a pa b' pb) (hB : B64OK B) (c : Config) (hc : CfgOK (some c))
    (nonce m t : Bytes) (hn : nonce.length = 32) (hm : m.length ≤ 61440) (h : encrypt N B (some c) (some nonce) a pb m = .ok t) (k : Nat) :
    decrypt N B (some { c with nip44Min := k }) b' pa t = .ok m :=
  Nip44.Props.C15_roundtrip_partial hN hB hc hn hm h

/-! ## Fields without effect -/

theorem addTag_same {c d : Config} (h : SameLimits c d) (e : Event) (vs : List Bytes) : addTag (some c) e vs = addTag (some d) e vs := by
  simp only [addTag, Option.any_some, h.2.2.2.2.2.2]

theorem addTags_same {c d : Config} (h : SameLimits c d) : ∀ (l : List Json) (e : Event), addTags (some c) e l = addTags (some d) e l := by
  intro l
  induction l with
  | nil => intro e; rfl
  | cons j js ih =>
    intro e
    unfold addTags
    split
    · rw [addTag_same h]
      split
      · exact ih _
      · rfl
      · rfl
    · exact ih _

theorem fromJson_same {c d : Config} (h : SameLimits c d) (s : Bytes) : fromJson P b (some c) s = fromJson P b (some d) s := by
  have h1 : ∀ j, contentField (some c) j = contentField (some d) j := by
    intro j; simp only [contentField, Option.any_some, h.2.2.2.2.2.1]
  have h2 : ∀ j e, tagsField (some c) j e = tagsField (some d) j e := by
    intro j e; simp only [tagsField, Option.any_some, h.2.2.2.2.2.2, addTags_same h]
  unfold fromJson
  split
  · rfl
  · split
    · rfl
    · simp only [fromTree, h1, h2]

open Nostr.Nip44 in
/-- **C203, fields without effect.** The values per tag, the two relay timeouts, the choice of encryption, the memory lock and the debug mode
change nothing: two configurations that differ only there give the same event after any history, and the same encryption and decryption. -/
theorem C203_unused_refuted (c d : Config) (h : SameLimits c d) :
    (∀ now ops, Fixed ops → (run P b (some c) now ops).event = (run P b (some d) now ops).event) ∧
    (∀ N B nonce sk pk m, encrypt N B (some c) nonce sk pk m = encrypt N B (some d) nonce sk pk m) ∧
    (∀ N B sk pk t, decrypt N B (some c) sk pk t = decrypt N B (some d) sk pk t) := by
  refine ⟨?_, ?_, ?_⟩
  · intro now ops hf
    have key : ∀ (ops : List Op) (e : Event), Fixed ops →
        (ops.foldl (step P b) ⟨some c, e⟩).event = (ops.foldl (step P b) ⟨some d, e⟩).event := by
      intro ops
      induction ops with
      | nil => intro e _; rfl
      | cons o ops ih =>
        intro e hf
        have hf' : Fixed ops := fun c hm => hf c (List.mem_cons_of_mem _ hm)
        cases o with
        | configure x => exact absurd (List.mem_cons_self ..) (hf x)
        | content t => exact ih _ hf'
        | fields _ _ _ _ _ => exact ih _ hf'
        | tag vs => simp only [List.foldl_cons, step, addTag_same h]; exact ih _ hf'
        | read s => simp only [List.foldl_cons, step, fromJson_same h]; exact ih _ hf'
    exact key ops _ hf
  · intro N B nonce sk pk m
    have hp : pad (some c) m = pad (some d) m := by
      have m1 : minSize (some c) = minSize (some d) := h.1
      have m2 : maxSize (some c) = maxSize (some d) := h.2.1
      unfold pad
      rw [m1, m2]
    unfold encrypt
    rw [hp]
  · intro N B sk pk t
    have hp : ∀ p, unpad (some c) p = unpad (some d) p := by
      intro p
      have m2 : maxSize (some c) = maxSize (some d) := h.2.1
      unfold unpad
      simp only [m2]
    have hq : ∀ p, decryptPayload N (some c) sk pk p = decryptPayload N (some d) sk pk p := by
      intro p
      unfold decryptPayload
      simp only [hp]
    unfold decrypt
    simp only [hq]

example : SameLimits defaults { defaults with maxTagValues := 1, connectTimeout := 1000, responseTimeout := 1000, encryptionNip := 4, memoryLock := 1, debugMode := 1 } := by
  decide

end Nostr.Config.Limits.Props
