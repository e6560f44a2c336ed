import Verif.Own.Quote
import Verif.Own.EvProps
import Verif.Own.UriProps
import Verif.Own.TreeLemmas
import Verif.Nip18.Props

/-! # Property theorems: memory of quoting (C182) -/

namespace Nostr.Own.Quote.Props
open Nostr Nostr.Heap Nostr.Own Nostr.Own.Ev Nostr.Own.Ev.Props Nostr.Own.Uri Nostr.Own.Uri.Props Nostr.Own.Quote Nostr.Event Nostr.Own.Tree
open Nostr.Nip18 (quoteTag uriLen findUri)
open Nostr.Nip18.Spec (found uris)
open Nostr.Nip18.Props (Start uriAt start_iff uris_start findUri_spec take_uri start_noub start_uri parse_junk quoteTag_eq uris_after)

theorem slots_ok {h0 : Mem} {h : Heap} {rel : HRel} {ps own : List Nat}
    (hs : rel.slots = ps.map some ++ List.replicate (16 - ps.length) none) (hc : rel.count = ps.length) (hl : ps.length ≤ 16)
    (o : Owned h0 h.mem (ps ++ own)) : ∃ h', release rel h = some (empty, h') ∧ Owned h0 h'.mem own ∧ ∀ x ∈ own, h'.mem x = h.mem x := by
  have hn := List.nodup_append.1 o.nodup
  have ob : Owned (without h.mem ps) h.mem ps :=
    ⟨hn.1, fun a ha => by simp [without, ha], fun a ha => o.live a (List.mem_append_left _ ha), fun a ha => (without_other _ ha).symm⟩
  obtain ⟨h', e, m⟩ := freeSlots_ok ps (List.replicate (16 - ps.length) none) ob
  refine ⟨h', ?_, by rw [m]; exact o.drop, fun x hx => ?_⟩
  · unfold release
    rw [hs, hc]
    simp only [M.bind, e, Option.bind_some, M.pure, List.replicate_append_replicate]
    unfold empty
    rw [show ps.length + (16 - ps.length) = 16 by omega]
  · rw [m]; exact without_other _ fun hp => hn.2.2 x hp x hx rfl

theorem firstRelay_ok {h : Heap} {rel : HRel} {ps : List Nat} {l : List Bytes} (hs : rel.slots = ps.map some ++ List.replicate (16 - ps.length) none)
    (hc : rel.count = ps.length) (s : Strings h.mem ps l) : firstRelay rel h = some (l.headD [], h) := by
  unfold firstRelay
  rw [hs, hc]
  cases s with
  | nil => rfl
  | cons hp t => simp [loadStr, hp]

/-- What adding the tag of a URI does: as `addTag`, and the relays are gone. -/
theorem quoteOne_ok {A : Alloc} (hA : Fresh A) {h0 : Mem} {h : Heap} {e : HEv} {v : Event} {extra ps : List Nat} {rel : HRel} {u : Nip21.Uri} {t : List Bytes}
    (cfg : Option Config.Config) (grow : Bool) (ht : quoteTag u = some t)
    (hs : rel.slots = ps.map some ++ List.replicate (16 - ps.length) none) (hc : rel.count = ps.length) (hl : ps.length ≤ 16)
    (st : Strings h.mem ps (uriRelays u)) (d : Held h0 h.mem e v.content (ps ++ extra)) :
    (∃ x e' h', quoteOne A cfg grow v e u rel h = some ((some x, v, e'), h') ∧ Held h0 h'.mem e' v.content extra ∧
      (Event.addTag cfg v t = .err x ∨ (Refused A h0 ∧ x = .memory))) ∨
    ∃ w e' h', quoteOne A cfg grow v e u rel h = some ((none, w, e'), h') ∧ Held h0 h'.mem e' w.content extra ∧ Event.addTag cfg v t = .ok w := by
  have fin : ∀ f : Bytes → List Bytes, f ((uriRelays u).headD []) = t →
      (∃ x e' h', addAndFree A cfg grow v e rel f h = some ((some x, v, e'), h') ∧ Held h0 h'.mem e' v.content extra ∧
        (Event.addTag cfg v t = .err x ∨ (Refused A h0 ∧ x = .memory))) ∨
      ∃ w e' h', addAndFree A cfg grow v e rel f h = some ((none, w, e'), h') ∧ Held h0 h'.mem e' w.content extra ∧ Event.addTag cfg v t = .ok w := by
    intro f hf
    unfold addAndFree
    simp only [M.bind, firstRelay_ok hs hc st, Option.bind_some, hf]
    have drop : ∀ {e' : HEv} {c : Option Bytes} {h1 : Heap}, Held h0 h1.mem e' c (ps ++ extra) →
        ∃ h2, release rel h1 = some (empty, h2) ∧ Held h0 h2.mem e' c extra := by
      intro e' c h1 d1
      obtain ⟨h2, e2, o2, k2⟩ := slots_ok (own := blocks e' ++ extra) hs hc hl (d1.own.perm (by reorder))
      exact ⟨h2, e2, o2, text_mono d1.text fun x hx => k2 x (by simp [blocks, hx])⟩
    rcases addTag_ok hA cfg grow t d with ⟨x, e', h1, e1, d1, hx⟩ | ⟨w, e', h1, e1, d1, hw⟩
    · obtain ⟨h2, e2, d2⟩ := drop d1
      exact .inl ⟨x, e', h2, by simp only [e1, e2, Option.bind_some, M.pure], d2, hx⟩
    · obtain ⟨h2, e2, d2⟩ := drop d1
      exact .inr ⟨w, e', h2, by simp only [e1, e2, Option.bind_some, M.pure], d2, hw⟩
  cases u with
  | note id =>
    obtain rfl : ps = [] := by cases st; rfl
    cases ht
    exact addTag_ok hA cfg grow _ d
  | nevent n => cases ht; exact fin _ rfl
  | naddr a => cases ht; exact fin _ rfl
  | npub => cases ht
  | nsec => cases ht
  | nprofile => cases ht
  | nrelay => cases ht

theorem addTag_content {cfg : Option Config.Config} {v w : Event} {t : List Bytes} (h : Event.addTag cfg v t = .ok w) :
    w = { v with tags := v.tags ++ [t] } := by
  unfold Event.addTag at h
  split at h
  · cases h
  · split at h
    · cases h
    · cases h; rfl

theorem loop_ok {A : Alloc} (hA : Fresh A) {h0 : Mem} {extra : List Nat} (cfg : Option Config.Config) (grow : Nat → Bool) (junk : Nat → Bytes)
    (hj : ∀ i, (junk i).length = 84) : ∀ (fuel : Nat) (v : Event) (e : HEv) (pos : Bytes) (h : Heap), pos.length < fuel →
    (∀ u ∈ uris pos, u.length ≠ 96) → Held h0 h.mem e v.content extra →
    ∃ r w e' h' l, loop A cfg grow junk fuel v e pos h = some ((r, w, e'), h') ∧ Held h0 h'.mem e' v.content extra ∧
      w = { v with tags := v.tags ++ l } ∧ l.Sublist (found pos) ∧
      (Refused A h0 ∨ Nip18.quoteLoop cfg junk fuel v pos = .ok (w, r)) ∧
      (∀ x, r = some x → x = .memory ∧ Refused A h0 ∨ x = .invalidParam ∧ ∃ c, cfg = some c ∧ c.maxTags ≤ w.tags.length) := by
  intro fuel
  induction fuel with
  | zero => intro v e pos h hl; omega
  | succ fuel ih =>
    intro v e pos h hl h96 d
    obtain ⟨f1, f2⟩ := findUri_spec pos.length pos (Nat.le_refl _)
    rw [loop, Nip18.quoteLoop]
    cases hf : findUri pos.length pos with
    | none => exact ⟨none, v, e, h, [], rfl, d, by simp, List.nil_sublist _, .inr rfl, fun x hx => by cases hx⟩
    | some p =>
      obtain ⟨hs, hu, hpl⟩ := f2 p hf
      simp only
      rw [take_uri hs]
      have hu1 := uris_start hs
      have hlp : 6 ≤ p.length := by
        obtain ⟨h1, _⟩ := (start_iff p).1 hs
        have := (List.isPrefixOf_iff_prefix.1 h1).length_le
        simpa using this
      have hnub := start_noub hs (hj fuel) (h96 _ (by rw [hu, hu1]; simp))
      have hfd : found pos = (match Nip21.uriParse (List.replicate 84 0) (uriAt p) with
          | .ok x => (Nip18.Spec.tagOf x).toList
          | _ => []) ++ found (p.drop 1) := by
        unfold found
        rw [hu, hu1, List.filterMap_cons]
        cases Nip21.uriParse (List.replicate 84 0) (uriAt p) with
        | ok x => cases hx : Nip18.Spec.tagOf x <;> simp [hx]
        | err x => simp
        | ub => simp
      have hsub : (found (p.drop 1)).Sublist (found pos) := by rw [hfd]; exact List.sublist_append_right _ _
      have h96' : ∀ u ∈ uris (p.drop 1), u.length ≠ 96 := fun u hu' => h96 u (by rw [hu, hu1]; exact List.mem_cons_of_mem _ hu')
      rcases allocP hA d.own (.str (uriAt p)) with ⟨h1, e1, m1, rf⟩ | ⟨c, h1, e1, v1, o1, s1⟩
      · exact ⟨some .memory, v, e, h1, [], by simp only [M.bind, e1, Option.bind_some, M.pure], by rw [m1]; exact d, by simp, List.nil_sublist _, .inl rf,
          fun x hx => .inl ⟨by cases hx; rfl, rf⟩⟩
      · obtain ⟨q, h2, -, e2, hq, -⟩ := C138_uri_partial hA (junk := junk fuel) (uriAt p) h1 hnub
        have ld : loadStr c h1 = some (uriAt p, h1) := by simp [loadStr, v1]
        simp only [M.bind, e1, ld, e2, Option.bind_some]
        rcases hq with ⟨x, hr, m2, hx⟩ | ⟨u, hr, hp, rel⟩
        · obtain ⟨h3, e3, o3, k3⟩ := freeP (h := h2) (p := some c) (b := blocks e ++ extra) (by rw [m2]; exact o1)
          simp only [hr, e3, Option.bind_some]
          obtain ⟨r, w, e', h', l, i1, i2, i3, i4, i5, i6⟩ := ih v e (p.drop 1) h3 (by rw [List.length_drop]; omega) h96'
            ⟨o3, text_mono d.text fun x hx => by
              have hm : x ∈ blocks e ++ extra := by simp [blocks, hx]
              rw [k3 x hm, m2, s1 x hm]⟩
          refine ⟨r, w, e', h', l, i1, i2, i3, i4.trans hsub, ?_, i6⟩
          rcases hx with hx | hx
          · rcases i5 with i5 | i5
            · exact .inl i5
            · right; rw [hx]; exact i5
          · exact .inl (hx.1.back o1.same)
        · obtain ⟨ps, r1, r2, r3, r4, r5⟩ := rel.ex
          obtain ⟨o2, k2⟩ := o1.extend r5.nodup r5.fresh r5.live r5.same
          obtain ⟨h3, e3, o3, k3⟩ := freeP (h := h2) (p := some c) (b := blocks e ++ (ps ++ extra)) (o2.perm (by simp only [Option.toList]; reorder))
          simp only [hr, e3, Option.bind_some]
          have hq := parse_junk (j2 := List.replicate 84 0) (start_uri hs) hp
          have hq' : Nip21.uriParse (List.replicate 84 0) (uriAt p) = .ok u := hq
          rw [hq'] at hfd
          simp only at hfd
          obtain ⟨q1, q2, q3⟩ := quoteTag_eq (start_uri hs) hp
          have hua := uris_after hs hp
          have hfa : found (p.drop 1) = found (p.drop (uriLen p)) := by unfold found; rw [hua]
          obtain ⟨t, ht⟩ := Option.isSome_iff_exists.1 q2
          rw [← q1, ht, hfa] at hfd
          simp only [Option.toList_some, List.cons_append, List.nil_append] at hfd
          have d3 : Held h0 h3.mem e v.content (ps ++ extra) := ⟨o3, text_mono d.text fun x hx => by
            have hm : x ∈ blocks e := by simp [blocks, hx]
            rw [k3 x (List.mem_append_left _ hm), k2 x (by simp [hm]), s1 x (by simp [hm])]⟩
          have st3 : Strings h3.mem ps (uriRelays u) := r4.mono fun x hx => k3 x (by simp [hx])
          simp only [hp, ht]
          rcases quoteOne_ok hA cfg (grow fuel) ht r1 r2 r3 st3 d3 with ⟨x, e', h4, e4, d4, hx⟩ | ⟨w, e', h4, e4, d4, hw⟩
          · refine ⟨some x, v, e', h4, [], by simp only [M.bind, e4, Option.bind_some, M.pure], d4, by simp, List.nil_sublist _, ?_, fun y hy => ?_⟩
            · rcases hx with hx | hx
              · right; rw [hx]
              · exact .inl hx.1
            · cases hy
              rcases hx with hx | hx
              · right
                unfold Event.addTag at hx
                rw [if_neg (q3 t (by rw [ht]; rfl))] at hx
                split at hx
                · rename_i hany
                  cases hx
                  refine ⟨rfl, ?_⟩
                  cases cfg with
                  | none => simp at hany
                  | some c => exact ⟨c, rfl, by simpa using hany⟩
                · cases hx
              · exact .inl ⟨hx.2, hx.1⟩
          · have hwv := addTag_content hw
            have hlu : 6 ≤ uriLen p := by unfold uriLen; omega
            obtain ⟨r, w', e'', h', l, i1, i2, i3, i4, i5, i6⟩ := ih w e' (p.drop (uriLen p)) h4 (by rw [List.length_drop]; omega)
              (fun u hu' => h96' u (by rw [hua]; exact hu')) d4
            refine ⟨r, w', e'', h', t :: l, by simp only [M.bind, e4, Option.bind_some, i1], ?_, ?_, ?_, ?_, i6⟩
            · rw [hwv] at i2; exact i2
            · rw [i3, hwv]; simp
            · rw [hfd]; exact i4.cons_cons t
            · rcases i5 with i5 | i5
              · exact .inl i5
              · right; rw [hw]; exact i5

/-! ## C182 -/

/-- C182 (part): quoting, whenever memory runs out. The event gains tags, each for a quote of the content and in their order; no other block stays,
and the event can be released as before; an error is the limit of tags or the lack of memory; and with enough memory the outcome is that
of `C107`: all the quotes. -/
theorem C182_partial {A : Alloc} (hA : Fresh A) {h0 : Mem} {extra : List Nat} (cfg : Option Config.Config) (grow : Nat → Bool) (junk : Nat → Bytes)
    (hj : ∀ i, (junk i).length = 84) (v : Event) (e : HEv) (h : Heap) (h96 : ∀ u ∈ uris v.text, u.length ≠ 96) (d : Held h0 h.mem e v.content extra) :
    ∃ r w e' h' l, quoteTags A cfg grow junk v e h = some ((r, w, e'), h') ∧ Held h0 h'.mem e' v.content extra ∧
      w = { v with tags := v.tags ++ l } ∧ l.Sublist (found v.text) ∧
      (¬ Refused A h0 → Nip18.quoteTags cfg junk v = .ok (w, r) ∧ (r = none → l = found v.text)) ∧
      (∀ x, r = some x → x = .memory ∧ Refused A h0 ∨ x = .invalidParam ∧ ∃ c, cfg = some c ∧ c.maxTags ≤ w.tags.length) := by
  obtain ⟨r, w, e', h', l, i1, i2, i3, i4, i5, i6⟩ := loop_ok hA cfg grow junk hj (v.text.length + 1) v e v.text h (by omega) h96 d
  refine ⟨r, w, e', h', l, i1, i2, i3, i4, fun hr => ?_, i6⟩
  have i5 := i5.resolve_left hr
  refine ⟨i5, fun hn => ?_⟩
  obtain ⟨k, r', j1, j2, -⟩ := Nip18.Props.C107_quotes_partial cfg junk hj v h96
  have : Nip18.quoteTags cfg junk v = .ok (w, r) := i5
  rw [this] at j1
  simp only [Res.ok.injEq, Prod.mk.injEq] at j1
  have h3 := congrArg (fun e => e.tags) j1.1
  rw [i3] at h3
  have h4 := j2 (j1.2 ▸ hn)
  rw [List.take_of_length_le h4] at h3
  simpa using h3

/-- A content that quotes two events, the first with a relay. -/
def twice : Event :=
  { zero with content :=
      match Nip21.encodeBytes ([0, 32] ++ List.replicate 32 7 ++ [1, 9] ++ c!"wss://r.s") c!"nevent" 200,
        Nip21.encodeBytes ([0, 32] ++ List.replicate 32 9) c!"nevent" 200 with
      | .ok s, .ok t => some (c!"see nostr:" ++ s ++ c!" and nostr:" ++ t)
      | _, _ => none }

/-- The blocks of an event whose content is `twice`. -/
def start : Heap := ⟨fun a => if a = 4 then some (.str twice.text) else if a < 4 then some blob else none, 0⟩

/-- Quoting with the `k`-th request refused: the status, how many tags there are, how many requests there were, and how many new
blocks are left (among the first 40). -/
def outcome (k : Nat) : Option (Option Err × List (List Bytes) × Nat × Nat) :=
  (quoteTags (Filter.Props.failAt k) none (fun _ => false) (fun _ => List.replicate 84 0) twice ⟨1, some 4, 2, 3, none⟩ start).map fun r =>
    (r.1.1, r.1.2.1.tags, r.2.tick, ((List.range 40).filter fun i => (r.2.mem (100 + i)).isSome).length)

/-- What the second quote of `twice` alone gives. -/
def second : List Bytes := [c!"q", c!"0909090909090909090909090909090909090909090909090909090909090909", [], []]

/-- C182 fails: when memory is short while a quote is decoded, the quote is passed over like one that is no quote, and the call reports
success without its tag. -/
theorem C182_refuted : Fresh (Filter.Props.failAt 1) ∧ (found twice.text).length = 2 ∧
    Held (fun _ => none) start.mem ⟨1, some 4, 2, 3, none⟩ twice.content [0] ∧ outcome 1 = some (none, [second], 6, 1) := by
  refine ⟨failAt_fresh 1, by decide +kernel, ⟨⟨by decide, by simp, ?_, ?_⟩, ?_⟩, by decide +kernel⟩
  · intro a ha
    simp only [blocks, Option.toList, List.cons_append, List.nil_append, List.mem_cons, List.not_mem_nil, or_false] at ha
    rcases ha with rfl | rfl | rfl | rfl | rfl <;> simp [start]
  · intro a ha
    simp only [blocks, Option.toList, List.cons_append, List.nil_append, List.mem_cons, List.not_mem_nil, or_false, not_or] at ha
    simp only [start]
    rw [if_neg ha.1, if_neg (by omega)]
  · have : twice.content.isSome = true := by decide +kernel
    obtain ⟨t, ht⟩ := Option.isSome_iff_exists.1 this
    show some (Obj.str twice.text) = _
    simp [Event.text, ht]

/-- The hypotheses of `C182_partial` hold for `twice`; with enough memory there are both tags and one new block, the array of tags. -/
example : (∀ u ∈ uris twice.text, u.length ≠ 96) ∧ (outcome 99).map (fun r => (r.1, r.2.1.length, r.2.2)) = some (none, 2, 9, 1) ∧
    (outcome 5).map (fun r => (r.1, r.2.1.length, r.2.2)) = some (some .memory, 1, 6, 1) := by
  refine ⟨by decide +kernel, by decide +kernel, by decide +kernel⟩

end Nostr.Own.Quote.Props
