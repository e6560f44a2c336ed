import Verif.Nip65.Spec
import Verif.Nip51.Props
import Verif.Filter.HeapLemmas

/-! # Property theorems: C49, C50, C51 -/

namespace Nostr.Nip65.Props
open Nostr Nostr.Nip65 Nostr.Event Spec

/-! ## C49 -/

theorem split_prefix {p url : Bytes} (h : p.isPrefixOf url = true) (hl : p.length < url.length) :
    ∃ c rest, url = p ++ c :: rest ∧ url.getD p.length 0 = c := by
  obtain ⟨t, rfl⟩ := List.isPrefixOf_iff_prefix.1 h
  cases t with
  | nil => simp at hl
  | cons c rest => exact ⟨c, rest, rfl, by simp [List.getD]⟩

theorem validUrl_iff (url : Bytes) : validUrl url = true ↔ ValidUrl url := by
  unfold validUrl ValidUrl
  constructor
  · intro h
    split at h
    · simp at h
    rename_i h1
    refine ⟨by omega, ?_⟩
    by_cases hw : (c!"wss://").isPrefixOf url = true
    · rw [if_pos hw] at h
      simp only at h
      rw [if_neg (by decide)] at h
      split at h
      · simp at h
      obtain ⟨c, rest, e, hc⟩ := split_prefix hw (by show 6 < _; omega)
      have hc' : url.getD 6 0 = c := hc
      rw [hc'] at h
      exact ⟨c, rest, .inl e, by simpa using h⟩
    · by_cases hw2 : (c!"ws://").isPrefixOf url = true
      · rw [if_neg hw, if_pos hw2] at h
        simp only at h
        rw [if_neg (by decide)] at h
        split at h
        · simp at h
        obtain ⟨c, rest, e, hc⟩ := split_prefix hw2 (by show 5 < _; omega)
        have hc' : url.getD 5 0 = c := hc
        rw [hc'] at h
        exact ⟨c, rest, .inr e, by simpa using h⟩
      · rw [if_neg hw, if_neg hw2] at h
        simp at h
  · rintro ⟨hl, c, rest, h | h, hc⟩
    · subst h
      rw [if_neg (by simp only [List.length_append, List.length_cons] at hl ⊢; omega)]
      have hp : (c!"wss://").isPrefixOf (c!"wss://" ++ c :: rest) = true := List.isPrefixOf_iff_prefix.2 ⟨_, rfl⟩
      simp only [hp, if_true]
      rw [if_neg (by decide), if_neg (by simp)]
      have : (c!"wss://" ++ c :: rest).getD 6 0 = c := by simp [List.getD]
      rw [this]
      simpa using hc
    · subst h
      rw [if_neg (by simp only [List.length_append, List.length_cons] at hl ⊢; omega)]
      have hp0 : (c!"wss://").isPrefixOf (c!"ws://" ++ c :: rest) = false := by rfl
      have hp : (c!"ws://").isPrefixOf (c!"ws://" ++ c :: rest) = true := List.isPrefixOf_iff_prefix.2 ⟨_, rfl⟩
      simp only [hp, hp0, if_true, Bool.false_eq_true, if_false]
      rw [if_neg (by decide), if_neg (by simp)]
      have : (c!"ws://" ++ c :: rest).getD 5 0 = c := by simp [List.getD]
      rw [this]
      simpa using hc

/-- The list holds exactly the entries of the sequence. -/
def Rep (l : Lst) (s : List Entry) : Prop :=
  l.count = s.length ∧ ∃ k, l.slots = s.map some ++ List.replicate k none ∧ 8 ≤ s.length + k ∧ s.length + k ≤ 256

theorem rep_create : Rep create [] := ⟨rfl, 8, rfl, by simp, by simp⟩

theorem rep_entries {l : Lst} {s : List Entry} (h : Rep l s) : l.entries = s := by
  obtain ⟨h1, k, h2, -⟩ := h
  unfold Lst.entries
  rw [h1, h2, List.take_append_of_le_length (by simp), List.take_of_length_le (by simp), List.filterMap_map]
  show s.filterMap (fun x => some x) = s
  simp

theorem known_spec (url : Bytes) (r : List (Option Entry)) : ∀ s : List Entry,
    known url (s.map some ++ r) s.length = .ok (s.any fun x => x.url = url) := by
  intro s
  induction s with
  | nil => cases r <;> rfl
  | cons e s ih =>
    simp only [List.map_cons, List.cons_append, List.length_cons, known, List.any_cons]
    by_cases h : e.url = url
    · simp [h]
    · rw [if_neg h, ih]; simp [h]

theorem ensure_spec {l : Lst} {s : List Entry} (mem : Bool) (h : Rep l s) (hs : s.length < 256) :
    (∃ l1, ensure mem l = .ok l1 ∧ Rep l1 s ∧ l1.count < l1.slots.length) ∨ (mem = false ∧ ensure mem l = .err .memory) := by
  have hR := h
  obtain ⟨h1, k, h2, h3, h4⟩ := h
  have hl : l.slots.length = s.length + k := by rw [h2]; simp
  unfold ensure
  by_cases hc : l.count ≥ l.slots.length
  · rw [if_pos hc]
    have hk : k = 0 := by omega
    have hn : ∃ n, (if l.slots.length * 2 > 256 then 256 else l.slots.length * 2) = n ∧ s.length < n ∧ n ≤ 256 := by
      refine ⟨_, rfl, ?_, ?_⟩ <;> split <;> omega
    obtain ⟨n, e, n1, n2⟩ := hn
    simp only [e]
    rw [if_neg (by omega)]
    by_cases hmem : mem = false
    · rw [if_pos hmem]; exact .inr ⟨hmem, rfl⟩
    · rw [if_neg hmem]
      refine .inl ⟨_, rfl, ⟨h1, n - l.slots.length, ?_, ?_, ?_⟩, ?_⟩
      · simp only; rw [h2, hk]; simp
      · omega
      · omega
      · simp only [List.length_append, List.length_replicate]; omega
  · rw [if_neg hc]
    exact .inl ⟨l, rfl, hR, by omega⟩

theorem add_spec {l : Lst} {s : List Entry} (h : Rep l s) (mem dup : Bool) (e : Entry) :
    ∃ l' s' r, add mem dup l e = .ok (l', r) ∧ Rep l' s' ∧ Step s ⟨mem, dup, e⟩ s' r := by
  have rej : ¬ Fit s e → ∃ l' s' r, (Res.ok (l, some Err.invalidParam) : Res (Lst × Option Err)) = .ok (l', r) ∧ Rep l' s' ∧ Step s ⟨mem, dup, e⟩ s' r :=
    fun hf => ⟨l, s, _, rfl, h, .rejected hf⟩
  unfold add
  by_cases h1 : e.read = false ∧ e.write = false
  · rw [if_pos h1]; exact rej fun hf => by have := hf.2.1; simp [h1] at this
  rw [if_neg h1]
  by_cases h2 : validUrl e.url = false
  · rw [if_pos h2]; exact rej fun hf => by rw [(validUrl_iff _).2 hf.1] at h2; simp at h2
  rw [if_neg h2]
  have hR := h
  obtain ⟨c1, k, c2, c3, c4⟩ := h
  by_cases h3 : l.count ≥ 256
  · rw [if_pos h3]; exact rej fun hf => by have := hf.2.2.1; omega
  rw [if_neg h3, c1, c2, known_spec]
  simp only [Res.bind_ok]
  by_cases h4 : (s.any fun x => decide (x.url = e.url)) = true
  · rw [if_pos h4]
    refine rej fun hf => ?_
    obtain ⟨x, hx, hxe⟩ := List.any_eq_true.1 h4
    exact hf.2.2.2 x hx (by simpa using hxe)
  rw [if_neg h4]
  have hfit : Fit s e := by
    refine ⟨(validUrl_iff _).1 (by simpa using h2), ?_, by omega, fun x hx hxe => h4 (List.any_eq_true.2 ⟨x, hx, by simpa using hxe⟩)⟩
    by_cases hr : e.read = true
    · exact .inl hr
    · by_cases hw : e.write = true
      · exact .inr hw
      · simp [hr, hw] at h1
  rcases ensure_spec mem hR (by omega) with ⟨l1, e1, e2, e3⟩ | ⟨hm, e1⟩
  · simp only [e1]
    by_cases hd : dup = false
    · rw [if_pos hd]; exact ⟨l1, s, _, rfl, e2, .noMemory hfit (.inr hd)⟩
    · rw [if_neg hd, if_pos e3]
      refine ⟨_, s ++ [e], none, rfl, ?_, .added hfit⟩
      obtain ⟨d1, k1, d2, d3, d4⟩ := e2
      have hl : l1.slots.length = s.length + k1 := by rw [d2]; simp
      obtain ⟨j, rfl⟩ : ∃ j, k1 = j + 1 := ⟨k1 - 1, by omega⟩
      refine ⟨by simp [d1], j, ?_, ?_, ?_⟩
      · show l1.slots.set l1.count (some e) = _
        rw [d1, d2, List.replicate_succ]
        have := Nip51.set_at (s.map some) none (some e) (List.replicate j none)
        rw [List.length_map] at this
        rw [this]; simp
      · simp only [List.length_append, List.length_singleton]; omega
      · simp only [List.length_append, List.length_singleton]; omega
  · simp only [e1]
    exact ⟨l, s, _, rfl, hR, .noMemory hfit (.inl hm)⟩

theorem step_good {s s' : List Entry} {t : Try} {r : Option Err} (h : Step s t s' r) (hs : Good s) : Good s' := by
  cases h with
  | added hf =>
    obtain ⟨h1, h2, h3, h4⟩ := hf
    refine ⟨?_, ?_, by simp; omega⟩
    · rw [List.map_append, List.nodup_append]
      refine ⟨hs.urls, by simp, ?_⟩
      intro a ha b hb hab
      obtain ⟨x, hx, rfl⟩ := List.mem_map.1 ha
      simp only [List.map_cons, List.map_nil, List.mem_singleton] at hb
      exact h4 x hx (hab.trans hb)
    · intro e he
      rcases List.mem_append.1 he with he | he
      · exact hs.valid e he
      · rw [List.mem_singleton.1 he]; exact ⟨h1, h2⟩
  | rejected _ => exact hs
  | noMemory _ _ => exact hs

/-- Additions one after the other. -/
def run (l : Lst) : List Try → Res (Lst × List (Option Err))
  | [] => .ok (l, [])
  | t :: ts => add t.mem t.dup l t.e >>= fun q => run q.1 ts >>= fun r => .ok (r.1, q.2 :: r.2)

theorem run_good {s s' : List Entry} {h : List (Try × Option Err)} (hr : Run s h s') (hs : Good s) : Good s' := by
  induction hr with
  | nil => exact hs
  | cons h _ ih => exact ih (step_good h hs)

/-- C49: for every sequence of additions, with memory running out at any point: no access outside the array; an entry is
added exactly if it is valid, new and there is room, otherwise nothing changes; and the entries have distinct
WebSocket URLs, each with read or write set, 256 at most. -/
theorem C49_invariant (ts : List Try) : ∃ l rs, run create ts = .ok (l, rs) ∧ rs.length = ts.length ∧
    Run [] (ts.zip rs) l.entries ∧ Good l.entries ∧ l.count = l.entries.length := by
  suffices h : ∀ (l : Lst) (s : List Entry), Rep l s → ∃ l' rs, run l ts = .ok (l', rs) ∧ rs.length = ts.length ∧
      Run s (ts.zip rs) l'.entries ∧ l'.count = l'.entries.length by
    obtain ⟨l, rs, h1, h2, h3, h4⟩ := h _ _ rep_create
    exact ⟨l, rs, h1, h2, h3, run_good h3 ⟨by simp, by simp, by simp⟩, h4⟩
  induction ts with
  | nil => intro l s h; exact ⟨l, [], rfl, rfl, by rw [rep_entries h]; exact .nil, by rw [rep_entries h]; exact h.1⟩
  | cons t ts ih =>
    intro l s h
    obtain ⟨l1, s1, r, e, hr, hst⟩ := add_spec h t.mem t.dup t.e
    obtain ⟨l2, rs, e2, hl, hrun, hc⟩ := ih l1 s1 hr
    exact ⟨l2, r :: rs, by simp only [run, e, Res.bind_ok, e2], by simp [hl], .cons hst hrun, hc⟩

example : run create [⟨true, true, ⟨c!"wss://a", true, false⟩⟩, ⟨true, true, ⟨c!"wss://a", true, true⟩⟩, ⟨true, true, ⟨c!"ws:///x", true, true⟩⟩,
    ⟨true, false, ⟨c!"ws://b", true, true⟩⟩, ⟨true, true, ⟨c!"ws://b", false, true⟩⟩] =
    .ok (⟨some ⟨c!"wss://a", true, false⟩ :: some ⟨c!"ws://b", false, true⟩ :: List.replicate 6 none, 2⟩,
      [none, some .invalidParam, some .invalidParam, some .memory, none]) := by decide +kernel

theorem reach_rep {l : Lst} (h : Reach l) : ∃ s, Rep l s ∧ Good s := by
  induction h with
  | create => exact ⟨[], rep_create, ⟨by simp, by simp, by simp⟩⟩
  | @add l l' mem dup e r _ h ih =>
    obtain ⟨s, hs, hg⟩ := ih
    obtain ⟨l1, s1, r1, h1, h2, h3⟩ := add_spec hs mem dup e
    rw [h] at h1
    simp only [Res.ok.injEq, Prod.mk.injEq] at h1
    exact ⟨s1, h1.1 ▸ h2, step_good h3 hg⟩

/-- C49: `get` returns the entry at that place. -/
theorem C49_get {l : Lst} (h : Reach l) (i : Nat) : get l i = .ok l.entries[i]? := by
  obtain ⟨s, hs, -⟩ := reach_rep h
  rw [rep_entries hs]
  obtain ⟨h1, k, h2, -⟩ := hs
  unfold get
  split
  · rw [List.getElem?_eq_none (by omega)]
  · rw [h2, List.getElem?_append_left (by rw [List.length_map]; omega), List.getElem?_map, List.getElem?_eq_getElem (by omega)]
    rfl

/-! ## C50 -/

theorem readTag_iff (t : List Bytes) (e : Entry) : readTag t = some e ↔ Says t e := by
  obtain ⟨u, r, w⟩ := e
  constructor
  · intro h
    unfold readTag at h
    split at h
    · rename_i n url rs
      split at h
      · simp at h
      rename_i hn
      have hn : n = c!"r" := by simpa using hn
      subst hn
      split at h
      · rename_i m rest
        split at h
        · cases h; rename_i hm; subst hm; exact ⟨_, rfl, .inl ⟨rfl, rfl, rfl⟩⟩
        split at h
        · cases h; rename_i hm; subst hm; exact ⟨_, rfl, .inr (.inl ⟨rfl, rfl, rfl⟩)⟩
        · cases h; rename_i h1 h2; exact ⟨_, rfl, .inr (.inr ⟨rfl, rfl, by simpa using h1, by simpa using h2⟩)⟩
      · cases h; exact ⟨[], rfl, .inr (.inr ⟨rfl, rfl, by simp, by simp⟩)⟩
    · simp at h
  · rintro ⟨rs, rfl, h⟩
    have hn : ¬ ((c!"r") ≠ c!"r") := by simp
    simp only [readTag, if_neg hn]
    cases rs with
    | nil => simp at h; simp [h]
    | cons m rest =>
      simp only [List.head?_cons, Option.some.injEq, ne_eq] at h
      rcases h with ⟨rfl, rfl, rfl⟩ | ⟨rfl, rfl, rfl⟩ | ⟨rfl, rfl, h1, h2⟩
      · rfl
      · rfl
      · simp only [h1, h2, if_false]

/-- The entries that the tags stand for. -/
def picked (ts : List (List Bytes)) : List Entry := ts.filterMap readTag

theorem picked_picks (ts : List (List Bytes)) : Picks ts (picked ts) := by
  induction ts with
  | nil => exact .nil
  | cons t ts ih =>
    unfold picked
    cases h : readTag t with
    | none => rw [List.filterMap_cons_none h]; exact .miss (fun e he => by rw [(readTag_iff t e).2 he] at h; simp at h) ih
    | some e => rw [List.filterMap_cons_some h]; exact .hit ((readTag_iff t e).1 h) ih

theorem picks_unique {ts : List (List Bytes)} {es : List Entry} (h : Picks ts es) : es = picked ts := by
  induction h with
  | nil => rfl
  | hit h _ ih => unfold picked at *; rw [List.filterMap_cons_some ((readTag_iff _ _).2 h), ih]
  | miss h _ ih =>
    unfold picked at *
    rw [List.filterMap_cons_none, ih]
    cases hr : readTag _ with
    | none => rfl
    | some e => exact absurd ((readTag_iff _ _).1 hr) (h e)

theorem says_flags {t : List Bytes} {e : Entry} (h : Says t e) : e.read = true ∨ e.write = true := by
  obtain ⟨r, -, h | h | h⟩ := h
  · exact .inl h.1
  · exact .inr h.2.1
  · exact .inl h.1

/-- Entries in order, each kept if it is valid and its URL is new. -/
def keep (s : List Entry) (es : List Entry) : List Entry :=
  es.foldl (fun s e => if validUrl e.url = true ∧ s.length < 256 ∧ ∀ x ∈ s, x.url ≠ e.url then s ++ [e] else s) s

theorem firsts_filter (p : Bytes → Bool) : ∀ l : List Entry, firsts (l.filter fun e => p e.url) = (firsts l).filter fun e => p e.url := by
  intro l
  induction l with
  | nil => rfl
  | cons e l ih =>
    by_cases h : p e.url = true
    · rw [List.filter_cons_of_pos (by simpa using h)]
      simp only [firsts, ih]
      rw [List.filter_cons_of_pos (by simpa using h), List.filter_filter, List.filter_filter]
      congr 2
      funext x; rw [Bool.and_comm]
    · rw [List.filter_cons_of_neg (by simpa using h), ih]
      simp only [firsts]
      rw [List.filter_cons_of_neg (by simpa using h), List.filter_filter]
      refine List.filter_congr fun x _ => ?_
      by_cases hx : x.url = e.url
      · simp [hx]; simpa using h
      · simp [hx]

theorem keep_eq : ∀ (es s : List Entry), s.length ≤ 256 →
    keep s es = (s ++ firsts (es.filter fun e => validUrl e.url && decide (∀ x ∈ s, x.url ≠ e.url))).take 256 := by
  intro es
  induction es with
  | nil => intro s hs; simp only [keep, List.foldl_nil, List.filter_nil, firsts, List.append_nil]; rw [List.take_of_length_le hs]
  | cons e es ih =>
    intro s hs
    have hk : keep s (e :: es) = keep (if validUrl e.url = true ∧ s.length < 256 ∧ ∀ x ∈ s, x.url ≠ e.url then s ++ [e] else s) es := rfl
    rw [hk]
    by_cases hv : validUrl e.url = true ∧ ∀ x ∈ s, x.url ≠ e.url
    · rw [List.filter_cons_of_pos (by simpa using hv)]
      by_cases hl : s.length < 256
      · rw [if_pos ⟨hv.1, hl, hv.2⟩, ih _ (by simp; omega)]
        simp only [firsts, List.append_assoc, List.singleton_append]
        congr 3
        have := firsts_filter (fun u => decide (u ≠ e.url)) (es.filter fun e => validUrl e.url && decide (∀ x ∈ s, x.url ≠ e.url))
        rw [← this, List.filter_filter]
        congr 1
        refine List.filter_congr fun x _ => ?_
        rw [Bool.eq_iff_iff]
        simp only [Bool.and_eq_true, decide_eq_true_eq, List.mem_append, List.mem_singleton]
        exact ⟨fun ⟨h1, h2⟩ => ⟨fun h => h2 e (.inr rfl) h.symm, h1, fun y hy => h2 y (.inl hy)⟩,
          fun ⟨h1, h2, h3⟩ => ⟨h2, fun y hy => by rcases hy with hy | rfl; exact h3 y hy; exact Ne.symm h1⟩⟩
      · rw [if_neg (by rintro ⟨_, h, _⟩; exact hl h), ih _ hs]
        have : s.length = 256 := by omega
        rw [List.take_append_of_le_length (by omega), List.take_append_of_le_length (by omega)]
    · rw [List.filter_cons_of_neg (by simpa using hv), if_neg (by rintro ⟨h1, _, h2⟩; exact hv ⟨h1, h2⟩)]
      exact ih s hs

theorem readTags_spec (mem : Nat → Bool × Bool) : ∀ (ts : List (List Bytes)) (i : Nat) (l : Lst) (s : List Entry), Rep l s →
    (∃ l', readTags mem i l ts = .ok l' ∧ Rep l' (keep s (picked ts))) ∨ (readTags mem i l ts = .err .memory ∧ ∃ j, (mem j).1 = false ∨ (mem j).2 = false) := by
  intro ts
  induction ts with
  | nil => intro i l s h; exact .inl ⟨l, rfl, h⟩
  | cons t ts ih =>
    intro i l s h
    simp only [readTags, picked]
    cases hr : readTag t with
    | none => rw [List.filterMap_cons_none hr]; exact ih (i + 1) l s h
    | some e =>
      rw [List.filterMap_cons_some hr]
      obtain ⟨l1, s1, r, h1, h2, h3⟩ := add_spec h (mem i).1 (mem i).2 e
      simp only [h1, Res.bind_ok]
      have hk : keep s (e :: ts.filterMap readTag) = keep (if validUrl e.url = true ∧ s.length < 256 ∧ ∀ x ∈ s, x.url ≠ e.url then s ++ [e] else s) (ts.filterMap readTag) := rfl
      rw [hk]
      have hfl := says_flags ((readTag_iff t e).1 hr)
      cases h3 with
      | added hf =>
        rw [if_neg (by simp), if_pos ⟨(validUrl_iff _).2 hf.1, hf.2.2⟩]
        exact ih (i + 1) l1 _ h2
      | rejected hf =>
        rw [if_neg (by simp), if_neg (fun hx => hf ⟨(validUrl_iff _).1 hx.1, hfl, hx.2⟩)]
        exact ih (i + 1) l1 _ h2
      | noMemory hf hm =>
        rw [if_pos rfl]
        exact .inr ⟨rfl, i, hm⟩

/-- C50: an arbitrary event of kind 10002 is read as the first entry of each valid URL, 256 at most; reading fails only
for other kinds and without memory. -/
theorem C50_import (mem : Nat → Bool × Bool) (e : Event) :
    (e.kind ≠ 10002 ∧ fromEvent mem e = .err .invalidEvent) ∨
    (e.kind = 10002 ∧ fromEvent mem e = .err .memory ∧ ∃ j, (mem j).1 = false ∨ (mem j).2 = false) ∨
    (e.kind = 10002 ∧ ∃ l, fromEvent mem e = .ok l ∧ l.count = l.entries.length ∧
      ∀ es, Picks e.tags es → ∃ vs, vs = es.filter (fun x => @decide (ValidUrl x.url) (Classical.propDecidable _)) ∧ l.entries = (firsts vs).take 256) := by
  unfold fromEvent
  by_cases hk : e.kind = 10002
  · rw [if_neg (by simpa using hk)]
    right
    rcases readTags_spec mem e.tags 0 create [] rep_create with ⟨l, h1, h2⟩ | ⟨h1, h2⟩
    · refine .inr ⟨hk, l, h1, by rw [rep_entries h2]; exact h2.1, fun es hes => ⟨_, rfl, ?_⟩⟩
      rw [rep_entries h2, keep_eq _ _ (by simp), picks_unique hes, List.nil_append]
      congr 2
      refine List.filter_congr fun x _ => ?_
      have := validUrl_iff x.url
      cases hx : validUrl x.url
      · simp [this.symm, hx]
      · simp [this.symm, hx]
    · exact .inl ⟨hk, h1, h2⟩
  · rw [if_pos (by simpa using hk)]; exact .inl ⟨hk, rfl⟩

theorem picked_entries (s : List Entry) (h : ∀ e ∈ s, e.read = true ∨ e.write = true) : picked (s.map entryTag) = s := by
  induction s with
  | nil => rfl
  | cons e s ih =>
    have he : readTag (entryTag e) = some e := by
      obtain ⟨u, r, w⟩ := e
      have := h ⟨u, r, w⟩ (by simp)
      cases r <;> cases w <;> first | rfl | simp at this
    unfold picked at *
    rw [List.map_cons, List.filterMap_cons_some he, ih fun x hx => h x (by simp [hx])]

theorem keep_good : ∀ (es s : List Entry), Good (s ++ es) → keep s es = s ++ es := by
  intro es
  induction es with
  | nil => intro s _; simp [keep]
  | cons e es ih =>
    intro s h
    have hk : keep s (e :: es) = keep (if validUrl e.url = true ∧ s.length < 256 ∧ ∀ x ∈ s, x.url ≠ e.url then s ++ [e] else s) es := rfl
    rw [hk, if_pos, ih (s ++ [e]) (by simpa using h)]
    · simp
    refine ⟨(validUrl_iff _).2 (h.valid e (by simp)).1, by have := h.count; simp at this; omega, fun x hx hxe => ?_⟩
    have hn := h.urls
    rw [List.map_append, List.nodup_append] at hn
    exact hn.2.2 _ (List.mem_map.2 ⟨x, hx, rfl⟩) e.url (by simp) hxe

/-- C50: a relay list that was written to an event is read back unchanged. -/
theorem C50_roundtrip {cfg : Option Config.Config} {now : Int} {l : Lst} (hl : Reach l) {e : Event} (h : toEvent cfg now l = .ok e) :
    ∃ l', fromEvent (fun _ => (true, true)) e = .ok l' ∧ l'.entries = l.entries := by
  obtain ⟨s, hs, hg⟩ := reach_rep hl
  have he := rep_entries hs
  unfold toEvent at h
  have ht := Nip51.Props.addAll_tags cfg _ _ _ h
  rw [he] at ht ⊢
  have hk : e.kind = 10002 := by rw [ht]
  have htags : e.tags = s.map entryTag := by rw [ht]; simp [zero]
  unfold fromEvent
  rw [if_neg (by simpa using hk), htags]
  rcases readTags_spec (fun _ => (true, true)) (s.map entryTag) 0 create [] rep_create with ⟨l', h1, h2⟩ | ⟨-, j, h2⟩
  · refine ⟨l', h1, ?_⟩
    rw [rep_entries h2, picked_entries s fun x hx => (hg.valid x hx).2, keep_good _ _ (by simpa using hg)]
    rfl
  · simp at h2

/-- C50: writing succeeds exactly for lists that do not have more entries than an event may have tags (100 unless
configured), so lists of up to 256 relays may not be writable. -/
theorem C50_writable {cfg : Option Config.Config} {now : Int} {l : Lst} :
    (toEvent cfg now l).isOk = true ↔ ∀ c ∈ cfg, l.entries.length ≤ c.maxTags := by
  suffices h : ∀ (ts : List (List Bytes)) (e : Event), (∀ t ∈ ts, t ≠ []) → (∀ c ∈ cfg, e.tags.length ≤ c.maxTags) →
      ((Nip51.addAll cfg e ts).isOk = true ↔ ∀ c ∈ cfg, e.tags.length + ts.length ≤ c.maxTags) by
    have := h (l.entries.map entryTag) { zero with kind := 10002, createdAt := now, content := some [] } (by
      intro t ht
      obtain ⟨x, -, rfl⟩ := List.mem_map.1 ht
      unfold entryTag; split <;> simp) (fun c _ => by simp [zero])
    simpa [toEvent, zero] using this
  intro ts
  induction ts with
  | nil => intro e _ h; simpa [Nip51.addAll, Res.isOk] using h
  | cons t ts ih =>
    intro e hne h
    simp only [Nip51.addAll, addTag]
    rw [if_neg (hne t (by simp))]
    cases cfg with
    | none =>
      simp only [Option.any_none, Bool.false_eq_true, if_false, Res.bind_ok]
      exact (ih _ (fun x hx => hne x (by simp [hx])) (by simp)).trans (by simp)
    | some c =>
      have hc := h c rfl
      simp only [Option.any_some, decide_eq_true_eq]
      by_cases hf : e.tags.length ≥ c.maxTags
      · rw [if_pos hf]
        simp only [Res.bind_err, Res.isOk, Bool.false_eq_true, Option.mem_def, Option.some.injEq, forall_eq', List.length_cons, false_iff]
        omega
      · rw [if_neg hf]
        simp only [Res.bind_ok]
        rw [ih _ (fun x hx => hne x (by simp [hx])) (fun c' hc' => by cases hc'; simp; omega)]
        simp only [List.length_append, List.length_cons, List.length_nil, Option.mem_def, Option.some.injEq, forall_eq']
        omega

example : (toEvent none 5 ⟨[some ⟨c!"wss://a", true, false⟩, some ⟨c!"ws://b", true, true⟩], 2⟩).isOk = true := rfl

example : ∃ l, fromEvent (fun _ => (true, true)) ⟨[], [], 0, 10002, [[c!"r", c!"wss://a", c!"read"], [c!"p", c!"x"], [c!"r", c!"http://b"],
    [c!"r", c!"wss://a", c!"write"], [c!"r", c!"ws://c", c!"other"]], none, []⟩ = .ok l ∧ l.entries = [⟨c!"wss://a", true, false⟩, ⟨c!"ws://c", true, true⟩] :=
  ⟨_, rfl, by decide +kernel⟩

/-! ## C51 -/

open Nostr.Heap Nostr.Filter.Own

theorem viewLoop_eq (A : Alloc) (d n : Nat) (f : Entry → Bool) : ∀ (es : List Entry) (j : Nat), j + (es.filter f).length ≤ n →
    viewLoop A d n f es j = fillLoop A d ((es.filter f).map (·.url)) j := by
  intro es
  induction es with
  | nil => intro j _; rfl
  | cons e es ih =>
    intro j hj
    by_cases hf : f e = true
    · rw [List.filter_cons_of_pos hf] at hj ⊢
      simp only [List.length_cons] at hj
      simp only [viewLoop, List.map_cons, fillLoop]
      rw [if_pos (by omega), if_pos hf]
      congr 1
      funext c
      cases c with
      | none => rfl
      | some c =>
        simp only
        congr 1
        funext _
        exact ih (j + 1) (by omega)
    · rw [List.filter_cons_of_neg hf] at hj ⊢
      simp only [viewLoop]
      by_cases hj2 : j < n
      · rw [if_pos hj2, if_neg hf]; exact ih j hj
      · rw [if_neg hj2]
        have : es.filter f = [] := List.eq_nil_of_length_eq_zero (by omega)
        rw [this]; rfl

/-- C51: with any allocator, the view returned is exactly the URLs with the flag, in order, in new memory of the
caller's, which `nostr_relay_list_free_urls` releases completely; without memory nothing is left allocated. -/
theorem C51_view {A : Alloc} (hA : Fresh A) (l : List Entry) (forRead : Bool) (out : Nat) (h : Heap) :
    ∃ st p n h', view A l forRead out h = some ((st, p, n), h') ∧
      ((st = none ∧ ∃ own, Extends h h' own ∧ StrArr h'.mem p n ((l.filter fun e => if forRead then e.read else e.write).map (·.url)) own ∧
          ∃ h'', freeUrls p n h' = some ((), h'') ∧ h''.mem = h.mem) ∨
       (st = some .memory ∧ p = none ∧ h'.mem = h.mem ∧ Refused A h.mem)) := by
  unfold view
  generalize (fun e : Entry => if forRead then e.read else e.write) = f
  by_cases h0 : (l.filter f).length = 0
  · simp only [h0, if_true]
    have : (l.filter f) = [] := List.eq_nil_of_length_eq_zero h0
    refine ⟨none, none, 0, h, rfl, .inl ⟨rfl, [], Extends.refl h h.tick, ?_, h, rfl, rfl⟩⟩
    rw [this]; exact .null
  · simp only [h0, if_false, M.bind]
    rcases alloc_cases hA (.ptrs (List.replicate (l.filter f).length none)) h with ⟨hf, hc⟩ | ⟨d, hc, hd⟩
    · simp only [hc, Option.bind_some, M.pure]
      exact ⟨_, _, _, _, rfl, .inr ⟨rfl, rfl, rfl, .here hf⟩⟩
    · simp only [hc, Option.bind_some, M.bind]
      rw [viewLoop_eq A d _ _ l 0 (by omega)]
      obtain ⟨b, h1, e1, e2⟩ := fillLoop_ok hA ((l.filter f).map (·.url)) [] []
        (l.filter f).length _ (Filling.start (t := h.tick + 1) hd) (by simp)
      rw [List.length_nil] at e1
      simp only [e1, Option.bind_some]
      rcases e2 with ⟨rfl, hf, hm⟩ | ⟨rfl, qs, hfill⟩
      · simp only [Bool.false_eq_true, if_false, M.pure]
        exact ⟨_, _, _, _, rfl, .inr ⟨rfl, rfl, hm, hf⟩⟩
      · simp only [if_true, M.pure]
        simp only [List.nil_append, List.length_map, Nat.sub_self, List.replicate_zero] at hfill
        have hl := hfill.strs.length
        rw [List.length_map] at hl
        have hs : StrArr h1.mem (some d) qs.length ((l.filter f).map (·.url)) (d :: qs) :=
          .arr hfill.arr hfill.strs
        rw [hl] at hs
        have hfree := freeStrings_ok hs hfill.ext.nodup
        exact ⟨_, _, _, _, rfl, .inl ⟨rfl, _, hfill.ext, hs, _, hfree, hfill.ext.without⟩⟩

/-- C51: every URL of a list is in at least one view. -/
theorem C51_complete {l : Lst} (h : Reach l) {e : Entry} (he : e ∈ l.entries) :
    e.url ∈ (l.entries.filter (·.read)).map (·.url) ∨ e.url ∈ (l.entries.filter (·.write)).map (·.url) := by
  obtain ⟨s, hs, hg⟩ := reach_rep h
  rw [rep_entries hs] at he ⊢
  rcases (hg.valid e he).2 with hf | hf
  · exact .inl (List.mem_map.2 ⟨e, List.mem_filter.2 ⟨he, hf⟩, rfl⟩)
  · exact .inr (List.mem_map.2 ⟨e, List.mem_filter.2 ⟨he, hf⟩, rfl⟩)

example : (view (fun _ n => some n) [⟨c!"ws://a", true, false⟩, ⟨c!"ws://b", false, true⟩, ⟨c!"ws://c", true, true⟩] true 9 ⟨fun _ => none, 0⟩).map
    (fun r => (r.1, r.2.mem 0, r.2.mem 1, r.2.mem 2, r.2.mem 3)) =
    some ((none, some 0, 2), some (.ptrs [some 1, some 2]), some (.str (c!"ws://a")), some (.str (c!"ws://c")), none) := rfl

end Nostr.Nip65.Props
