import Verif.Nip51.Lemmas
import Verif.Nip44.Props
import Verif.Nip47.Props

/-! # Property theorems: C43 (for lists), C46, C47, C48, C104, C105 -/

namespace Nostr.Nip51.Props
open Nostr Nostr.Nip51 Nostr.Event Spec

/-! ## C46 -/

/-- One operation of the model. -/
def perform (l : Lst) : Op → Res (Lst × Out)
  | .add mem dup a priv => add mem dup l a priv >>= fun q => .ok (q.1, .code q.2)
  | .remove i => remove l i >>= fun q => .ok (q.1, .code q.2)
  | .get i => get l i >>= fun o => .ok (l, .item o)

/-- A program: operations one after the other. -/
def run (l : Lst) : List Op → Res (Lst × List Out)
  | [] => .ok (l, [])
  | op :: ops => perform l op >>= fun q => run q.1 ops >>= fun r => .ok (r.1, q.2 :: r.2)

theorem perform_spec {l : Lst} {s : List Item} (h : Rep l s) (op : Op) :
    ∃ l' s' out, perform l op = .ok (l', out) ∧ Rep l' s' ∧ Step s op s' out := by
  cases op with
  | add mem dup a priv =>
    simp only [perform, add]
    rcases item_iff a priv with ⟨hv, hi⟩ | ⟨hv, hi⟩
    · rw [hi]
      rcases addItem_spec mem dup (made a priv) h with ⟨hs, l1, e, hr, -⟩ | ⟨hs, l1, e, hr⟩
      · exact ⟨l1, _, _, by simp only [e, Res.bind_ok], hr, .added hv hs⟩
      · refine ⟨l1, s, .code (some .memory), by simp only [e, Res.bind_ok], hr, ?_⟩
        rcases hs with hs | hs
        · exact .full hv hs
        · exact .noMemory hv hs
    · rw [hi]
      exact ⟨l, s, _, rfl, h, .invalid hv⟩
  | remove i =>
    simp only [perform]
    rcases remove_spec i h with ⟨hs, l1, e, hr⟩ | ⟨hs, e⟩
    · exact ⟨l1, _, _, by simp only [e, Res.bind_ok], hr, .removed hs⟩
    · exact ⟨l, s, _, by simp only [e, Res.bind_ok], h, .noIndex hs⟩
  | get i =>
    simp only [perform, get_spec i h, Res.bind_ok]
    exact ⟨l, s, _, rfl, h, .got⟩

/-- C46: in every history, with memory running out at any point, a list behaves as a sequence of at most 4096 items:
no access outside its array, and every return value is the one of the sequence. -/
theorem C46_sequence (kind : Nat) (ops : List Op) : ∃ l outs, run (create kind) ops = .ok (l, outs) ∧
    outs.length = ops.length ∧ Run [] (ops.zip outs) l.items ∧ l.count = l.items.length := by
  suffices h : ∀ (l : Lst) (s : List Item), Rep l s → ∃ l' outs, run l ops = .ok (l', outs) ∧ outs.length = ops.length ∧
      Run s (ops.zip outs) l'.items ∧ l'.count = l'.items.length from h _ _ (rep_create kind)
  induction ops with
  | nil => intro l s h; exact ⟨l, [], rfl, rfl, by rw [rep_items h]; exact .nil, by rw [rep_items h]; exact h.1⟩
  | cons op ops ih =>
    intro l s h
    obtain ⟨l1, s1, out, e, hr, hstep⟩ := perform_spec h op
    obtain ⟨l2, outs, e2, hl, hrun, hc⟩ := ih l1 s1 hr
    exact ⟨l2, out :: outs, by simp only [run, e, Res.bind_ok, e2], by simp [hl], .cons hstep hrun, hc⟩

example : run (create 10000) [.add true true (.word (c!"spam")) true, .add true true (.hashtag []) false, .remove 3, .get 0, .remove 0, .get 0] =
    .ok (create 10000, [.code none, .code (some .invalidParam), .code (some .invalidParam),
      .item (some ⟨c!"word", c!"spam", none, none, true⟩), .code none, .item none]) := by decide +kernel

/-- C105: a change that is reported as successful has stored the text; it fails only when memory runs out. Missing:
failed changes, which lose the old text (`C105_set_refuted`). -/
theorem C105_set_partial (dup : Bool) (o : Option Bytes) : ((setText dup o).2 = none → (setText dup o).1 = o) ∧
    ((setText dup o).2 ≠ none → dup = false ∧ (setText dup o).2 = some .memory) := by
  cases o <;> cases dup <;> simp [setText]

example : setText true (some (c!"new")) = (some (c!"new"), none) := rfl

/-- A failed change of title, description, image or identifier does not leave the list as it was: the old text is gone. -/
theorem C105_set_refuted : ∃ (old : Option Bytes) (new : Bytes), (setText false (some new)).2 = some .memory ∧ (setText false (some new)).1 ≠ old :=
  ⟨some (c!"old"), c!"new", rfl, by decide⟩

/-- Every item has been added by one of the functions, with valid arguments. -/
def Made (it : Item) : Prop := ∃ a, Valid a ∧ it = made a it.priv

theorem step_made {s s' : List Item} {op : Op} {out : Out} (h : Step s op s' out) (hs : ∀ it ∈ s, Made it) : ∀ it ∈ s', Made it := by
  intro it hi
  cases h with
  | @added mem dup a priv hv _ =>
    rcases List.mem_append.1 hi with hi | hi
    · exact hs it hi
    · rw [List.mem_singleton.1 hi]
      refine ⟨a, hv, ?_⟩
      cases a <;> rfl
  | @removed i _ =>
    rcases List.mem_append.1 hi with hi | hi
    · exact hs it (List.mem_of_mem_take hi)
    · exact hs it (List.mem_of_mem_drop hi)
  | _ => exact hs it hi

theorem reach_rep {l : Lst} (h : Reach l) : ∃ s, Rep l s ∧ ∀ it ∈ s, Made it := by
  induction h with
  | create kind => exact ⟨[], rep_create kind, by simp⟩
  | @add l l' mem dup a priv r _ h ih =>
    obtain ⟨s, hs, hm⟩ := ih
    obtain ⟨l1, s1, out, e, hr, hst⟩ := perform_spec hs (.add mem dup a priv)
    simp only [perform, h, Res.bind_ok, Res.ok.injEq, Prod.mk.injEq] at e
    exact ⟨s1, e.1 ▸ hr, step_made hst hm⟩
  | @remove l l' i r _ h ih =>
    obtain ⟨s, hs, hm⟩ := ih
    obtain ⟨l1, s1, out, e, hr, hst⟩ := perform_spec hs (.remove i)
    simp only [perform, h, Res.bind_ok, Res.ok.injEq, Prod.mk.injEq] at e
    exact ⟨s1, e.1 ▸ hr, step_made hst hm⟩
  | d _ ih => obtain ⟨s, hs⟩ := ih; exact ⟨s, hs⟩
  | title _ ih => obtain ⟨s, hs⟩ := ih; exact ⟨s, hs⟩
  | descr _ ih => obtain ⟨s, hs⟩ := ih; exact ⟨s, hs⟩
  | image _ ih => obtain ⟨s, hs⟩ := ih; exact ⟨s, hs⟩

theorem made_fields {it : Item} (h : Made it) : it.type ∉ [c!"d", c!"title", c!"description", c!"image"] ∧ it.type ≠ [] ∧ it.value ≠ [] := by
  obtain ⟨a, hv, e⟩ := h
  have d : ∀ t ∈ [c!"p", c!"e", c!"t", c!"word", c!"relay", c!"a", c!"group", c!"emoji"],
      t ∉ [c!"d", c!"title", c!"description", c!"image"] ∧ t ≠ [] := by decide
  have ht : (made a it.priv).type ∈ [c!"p", c!"e", c!"t", c!"word", c!"relay", c!"a", c!"group", c!"emoji"] := by
    cases a <;> simp [made]
  rw [e]
  refine ⟨(d _ ht).1, (d _ ht).2, ?_⟩
  cases a with
  | pubkey k h p => exact fun h0 => by have := hv.1; rw [show k = [] from h0] at this; simp at this
  | event k h => exact fun h0 => by have := hv.1; rw [show k = [] from h0] at this; simp at this
  | hashtag t => exact hv
  | word t => exact hv
  | relay t => exact hv
  | reference t h => exact hv
  | group t u n => exact hv.1
  | emoji t u => exact hv.1

/-! ## C43 and C48 -/

/-- C43 for the escaping of private list items: the text has exactly the length that is reserved for it, is the body of
a JSON string, and reads back as the given text. -/
theorem C43_list {s : Bytes} (hs : CStr s) : ∃ raw, (∀ b : Buf, b.text.length + escLen s < b.size → b.escape s = .ok ⟨b.size, b.text ++ raw⟩) ∧
    raw.length = escLen s ∧ ∀ rest, Json.parseStr (raw ++ 0x22 :: rest) = some (s, rest) := by
  refine ⟨esc s, fun b hb => escape_ok s b hb, esc_len s, fun rest => ?_⟩
  have : Json.Escaped (esc s) s := by
    clear rest
    induction s with
    | nil => exact .nil
    | cons c s ih =>
      have hc : c ≠ 0 := fun h0 => hs (by simp [h0])
      have he : Json.Escaped (escChar51 c) [c] := by
        have ht : ∀ n < 256, n ≠ 0 → (escChar51 (UInt8.ofNat n) = [UInt8.ofNat n] ∧ UInt8.ofNat n ≠ 0x22 ∧ UInt8.ofNat n ≠ 0x5c) ∨
            (Json.shortEsc.any (fun p => escChar51 (UInt8.ofNat n) = [0x5c, p.2] ∧ p.1 = UInt8.ofNat n)) ∨
            (escChar51 (UInt8.ofNat n) = [0x5c, 0x75, 0x30, 0x30, Hex.digit (n / 16), Hex.digit (n % 16)] ∧ n < 0x20) := by decide +kernel
        have := ht c.toNat c.toNat_lt fun h => hc (UInt8.toNat_inj.1 h)
        rw [UInt8.ofNat_toNat] at this
        simp only [List.any_eq_true, decide_eq_true_eq] at this
        rcases this with ⟨h1, h2, h3⟩ | ⟨p, hp, h1, h2⟩ | ⟨h1, h2⟩
        · rw [h1]; exact .plain h2 h3 .nil
        · rw [h1, ← h2]; exact .short hp .nil
        · rw [h1]; exact .code h2 .nil
      exact he.append (ih fun h0 => hs (by simp [h0]))
  exact this.parseStr hs rest

/-- C48: building the private content writes only within the buffer, for every list. -/
theorem C48_buffer (l : List Item) : ∃ t, privateText l = .ok t ∧ t.length < bufSize l := by
  have hb := bufSize_ge l true
  rw [privateText_eq]
  refine ⟨_, rfl, ?_⟩
  split
  · simp only [List.length_nil]; omega
  · rename_i h
    have : 0 < (privs l).length := List.length_pos_iff.2 h
    simp only [List.length_cons, List.length_append, List.length_nil]
    omega

example : privateText [⟨c!"p", c!"k\"", none, some (c!"n"), true⟩, ⟨c!"t", c!"x", none, none, false⟩] =
    .ok (c!"[[\"p\",\"k\\\"\",\"\",\"n\"]]") := by decide +kernel

/-! ## C47 -/

theorem addAll_tags (cfg : Option Config.Config) : ∀ (ts : List (List Bytes)) (e e' : Event), addAll cfg e ts = .ok e' →
    e' = { e with tags := e.tags ++ ts } := by
  intro ts
  induction ts with
  | nil => intro e e' h; simp only [addAll, Res.ok.injEq] at h; subst h; simp
  | cons t ts ih =>
    intro e e' h
    simp only [addAll] at h
    obtain ⟨e1, h1, h2⟩ := Res.bind_eq_ok.1 h
    have h3 := ih e1 e' h2
    unfold addTag at h1
    split at h1
    · simp at h1
    split at h1
    · simp at h1
    simp only [Res.ok.injEq] at h1
    subst h1
    rw [h3]
    simp

theorem readTags_append (a b : List (List Bytes)) (l : Lst) : readTags l (a ++ b) = (readTags l a >>= fun l1 => readTags l1 b) := by
  induction a generalizing l with
  | nil => rfl
  | cons t a ih =>
    simp only [List.cons_append, readTags, Res.bind_assoc]
    congr 1
    funext l1
    exact ih l1

theorem readTag_item {it : Item} (h1 : it.type ∉ [c!"d", c!"title", c!"description", c!"image"]) (hp : it.priv = false) {l : Lst}
    {s : List Item} (hr : Rep l s) (hs : s.length < 4096) :
    ∃ l', readTag l (itemTag it) = .ok l' ∧ Rep l' (s ++ [pubBack it]) ∧ Same l l' := by
  obtain ⟨ty, va, hi, pe, pr⟩ := it
  simp only [List.mem_cons, List.not_mem_nil, or_false, not_or] at h1 hp
  subst hp
  obtain ⟨l1, e1, e2, e3⟩ := addItem_ok (pubBack ⟨ty, va, hi, pe, false⟩) hr hs
  refine ⟨l1, ?_, e2, e3⟩
  have e : ∃ r, itemTag ⟨ty, va, hi, pe, false⟩ = ty :: va :: r ∧ (⟨ty, va, r.head?, (r.drop 1).head?, false⟩ : Item) = pubBack ⟨ty, va, hi, pe, false⟩ := by
    cases pe <;> cases hi <;> exact ⟨_, rfl, rfl⟩
  obtain ⟨r, e4, e5⟩ := e
  rw [e4]
  simp only [readTag, if_neg h1.1, if_neg h1.2.1, if_neg h1.2.2.1, if_neg h1.2.2.2, e5, e1, Res.bind_ok]

theorem readTags_items : ∀ (its : List Item), (∀ it ∈ its, it.type ∉ [c!"d", c!"title", c!"description", c!"image"] ∧ it.priv = false) →
    ∀ {l : Lst} {s : List Item}, Rep l s → s.length + its.length ≤ 4096 →
    ∃ l', readTags l (its.map itemTag) = .ok l' ∧ Rep l' (s ++ its.map pubBack) ∧ Same l l' := by
  intro its
  induction its with
  | nil => intro _ l s hr _; exact ⟨l, rfl, by simpa using hr, same_refl l⟩
  | cons it its ih =>
    intro h l s hr hs
    simp only [List.length_cons] at hs
    obtain ⟨l1, e1, e2, e3⟩ := readTag_item (h it (by simp)).1 (h it (by simp)).2 hr (by omega)
    obtain ⟨l2, e4, e5, e6⟩ := ih (fun j hj => h j (by simp [hj])) e2 (by simp only [List.length_append, List.length_singleton]; omega)
    exact ⟨l2, by simp only [List.map_cons, readTags, e1, Res.bind_ok, e4], by simpa using e5, same_trans e3 e6⟩

theorem readTags_head (l : Lst) : ∃ l', readTags (create l.kind) (headTags l) = .ok l' ∧ Rep l' [] ∧ l'.kind = l.kind ∧
    (parameterized l.kind = true → l'.d = some (l.d.getD []) ∧ l'.title = l.title ∧ l'.descr = l.descr ∧ l'.image = l.image) ∧
    (parameterized l.kind = false → l'.d = none ∧ l'.title = none ∧ l'.descr = none ∧ l'.image = none) := by
  unfold headTags
  by_cases hk : parameterized l.kind = true
  · rw [if_pos hk]
    obtain ⟨kind, d, title, descr, image, slots, count⟩ := l
    simp only at hk ⊢
    refine ⟨⟨kind, some (d.getD []), title, descr, image, List.replicate 8 none, 0⟩, ?_, ⟨rfl, 8, rfl, by simp, by simp⟩, rfl,
      fun _ => ⟨rfl, rfl, rfl, rfl⟩, fun h => by rw [hk] at h; simp at h⟩
    cases title <;> cases descr <;> cases image <;> rfl
  · rw [if_neg hk]
    exact ⟨create l.kind, rfl, rep_create _, rfl, fun h => absurd h hk, fun _ => ⟨rfl, rfl, rfl, rfl⟩⟩

theorem privs_len (s : List Item) : (s.filter (fun it => !it.priv)).length + (s.filter (·.priv)).length = s.length := by
  induction s with
  | nil => rfl
  | cons it s ih => cases h : it.priv <;> simp [h] <;> omega

/-- Reading back a list written with a key pair. -/
theorem written_back {N : Nip44.Nc} {B : Nip44.B64} {cfg : Option Config.Config} {k : Keys}
    (hN : Nip44.Spec.NcOK N k.sk k.pk k.sk k.pk) (hB : Nip44.Spec.B64OK B) (hcfg : Nip44.Spec.CfgOK cfg)
    (henc : ∀ x, x ≠ [] → B.enc x ≠ []) {nonce : Bytes} (hn : nonce.length = 32) {now : Int} {l : Lst} (hl : Reach l)
    (htx : ∀ it ∈ l.items, it.priv = true → Texts it) (hlen : ∀ t, privateText l.items = .ok t → t.length ≤ 61440)
    {e : Event} (h : toEvent N B cfg now (some nonce) (some k) l = .ok e) :
    ((∀ it ∈ l.items, it.priv = true → Fits it) →
      ∃ l', fromEvent N B cfg (some k) e = .ok l' ∧ l'.items = back l.items ∧ l'.kind = l.kind ∧
        (30000 ≤ l.kind ∧ l.kind < 40000 → l'.d = some (l.d.getD []) ∧ l'.title = l.title ∧ l'.descr = l.descr ∧ l'.image = l.image)) ∧
    ((∃ it ∈ l.items, it.priv = true ∧ ¬ Fits it) → fromEvent N B cfg (some k) e = .err .jsonParse) := by
  obtain ⟨s, hs, hmade⟩ := reach_rep hl
  have hit := rep_items hs
  rw [hit] at htx hlen ⊢
  have hcount : s.length ≤ 4096 := by obtain ⟨-, k, -, h1, h2⟩ := hs; omega
  have hpl := privs_len s
  unfold toEvent at h
  rw [hit, if_neg (by rintro ⟨_, h⟩; simp at h)] at h
  obtain ⟨e1, h1, h2⟩ := Res.bind_eq_ok.1 h
  have ht := addAll_tags cfg _ _ _ h1
  obtain ⟨lh, r1, r2, r3, r4, r5⟩ := readTags_head l
  obtain ⟨lp, q1, q2, q3⟩ := readTags_items (s.filter fun it => !it.priv)
    (fun it hi => by
      obtain ⟨ha, hb⟩ := List.mem_filter.1 hi
      exact ⟨(made_fields (hmade it ha)).1, by simpa using hb⟩) r2 (by simp only [List.length_nil]; omega)
  have hkind : e1.kind = l.kind := by rw [ht]
  have htags : e1.tags = headTags l ++ (s.filter fun it => !it.priv).map itemTag := by rw [ht]; simp [zero]
  have hread : readTags (create e1.kind) e1.tags = .ok lp := by
    rw [hkind, htags, readTags_append, r1]; simp only [Res.bind_ok]; exact q1
  have hpar : 30000 ≤ l.kind ∧ l.kind < 40000 → parameterized l.kind = true := by intro h; unfold parameterized; simpa using h
  rw [List.nil_append] at q2
  simp only at h2
  by_cases hp : s.any (·.priv) = true
  · rw [if_pos hp, privateText_eq] at h2
    simp only [Res.bind_ok] at h2
    obtain ⟨ct, h3, h4⟩ := Res.bind_eq_ok.1 h2
    simp only [Res.ok.injEq] at h4
    have hpne : privs s ≠ [] := by
      intro h0
      obtain ⟨x, hx, hxp⟩ := List.any_eq_true.1 hp
      have : x ∈ privs s := List.mem_filter.2 ⟨hx, hxp⟩
      rw [h0] at this; simp at this
    rw [if_neg hpne] at h3
    have hl61 := hlen _ (privateText_eq s)
    rw [if_neg hpne] at hl61
    have hdec := Nip44.Props.C15_roundtrip_partial hN hB hcfg hn hl61 h3
    have hsane : ∀ it ∈ privs s, Sane it := fun it hi => by
      obtain ⟨ha, hb⟩ := List.mem_filter.1 hi
      obtain ⟨-, c1, c2⟩ := made_fields (hmade it ha)
      exact ⟨htx it ha hb, c1, c2, hb⟩
    have hback := parsePrivate_text (its := privs s) q2 hsane (by unfold privs; rw [List.length_map]; omega)
    have hcstr : CStr (0x5b :: (listText true (privs s) ++ [0x5d])) :=
      cstr_append (a := [0x5b]) (by decide) (cstr_append (listText_cstr fun it hi => (hsane it hi).1) (by decide))
    have hct : ct ≠ [] := by
      unfold Nip44.encrypt at h3
      simp only at h3
      obtain ⟨pd, g1, g2⟩ := Res.bind_eq_ok.1 h3
      cases hcv : N.conv k.sk k.pk with
      | none => rw [hcv] at g2; simp at g2
      | some ck =>
        rw [hcv] at g2
        simp only [Res.ok.injEq] at g2
        rw [← g2]
        exact henc _ (by simp)
    have hfrom : fromEvent N B cfg (some k) e = parsePrivate lp (0x5b :: (listText true (privs s) ++ [0x5d])) := by
      subst h4
      unfold fromEvent
      simp only [hread, Res.bind_ok, Event.text, Option.getD_some]
      simp only [hct, if_false, hdec, Res.bind_ok]
      rw [takeWhile_cstr hcstr]
    rw [hfrom]
    refine ⟨fun hfit => ?_, fun ⟨it, hi, hpr, hnf⟩ => hback.2 ⟨it, List.mem_filter.2 ⟨hi, hpr⟩, hnf⟩⟩
    obtain ⟨l2, p1, p2, p3⟩ := hback.1 fun it hi => hfit it (List.mem_filter.1 hi).1 (List.mem_filter.1 hi).2
    refine ⟨l2, p1, rep_items p2, p3.1.trans (q3.1.trans r3), fun hk => ?_⟩
    obtain ⟨a1, a2, a3, a4⟩ := r4 (hpar hk)
    obtain ⟨-, b1, b2, b3, b4⟩ := same_trans q3 p3
    exact ⟨b1.trans a1, b2.trans a2, b3.trans a3, b4.trans a4⟩
  · rw [if_neg hp] at h2
    simp only [Res.ok.injEq] at h2
    have hnp : s.filter (·.priv) = [] := by simpa using hp
    refine ⟨fun _ => ⟨lp, ?_, ?_, q3.1.trans r3, fun hk => ?_⟩, fun ⟨it, hi, hpr, _⟩ => ?_⟩
    · subst h2
      unfold fromEvent
      simp only [hread, Res.bind_ok, Event.text, Option.getD_some, if_true]
    · rw [rep_items q2]; unfold back; rw [hnp]; simp
    · obtain ⟨a1, a2, a3, a4⟩ := r4 (hpar hk)
      obtain ⟨-, b1, b2, b3, b4⟩ := q3
      exact ⟨b1.trans a1, b2.trans a2, b3.trans a3, b4.trans a4⟩
    · have : it ∈ s.filter (·.priv) := List.mem_filter.2 ⟨hi, hpr⟩
      rw [hnp] at this; simp at this

/-- C47: a list that has been written to an event is read back: public items, then private items, with the same fields
in the same order, and title, description, image and identifier of parameterised lists. Missing: private items with
fields longer than the reader's buffers (`C47_long_refuted`); an empty hint or petname of a private item, and a missing
hint in front of a public petname, do not survive (`back`, `C47_empty_refuted`); private contents of more than 61440
bytes (C15). -/
theorem C47_roundtrip_partial {N : Nip44.Nc} {B : Nip44.B64} {cfg : Option Config.Config} {k : Keys}
    (hN : Nip44.Spec.NcOK N k.sk k.pk k.sk k.pk) (hB : Nip44.Spec.B64OK B) (hcfg : Nip44.Spec.CfgOK cfg)
    (henc : ∀ x, x ≠ [] → B.enc x ≠ []) {nonce : Bytes} (hn : nonce.length = 32) {now : Int} {l : Lst} (hl : Reach l)
    (htx : ∀ it ∈ l.items, it.priv = true → Texts it) (hlen : ∀ t, privateText l.items = .ok t → t.length ≤ 61440)
    (hfit : ∀ it ∈ l.items, it.priv = true → Fits it)
    {e : Event} (h : toEvent N B cfg now (some nonce) (some k) l = .ok e) :
    ∃ l', fromEvent N B cfg (some k) e = .ok l' ∧ l'.items = back l.items ∧ l'.kind = l.kind ∧
      (30000 ≤ l.kind ∧ l.kind < 40000 → l'.d = some (l.d.getD []) ∧ l'.title = l.title ∧ l'.descr = l.descr ∧ l'.image = l.image) :=
  (written_back hN hB hcfg henc hn hl htx hlen h).1 hfit

/-- C47: a single private field that is too long makes the whole list unreadable, although it was written without an error. -/
theorem C47_long_refuted {N : Nip44.Nc} {B : Nip44.B64} {cfg : Option Config.Config} {k : Keys}
    (hN : Nip44.Spec.NcOK N k.sk k.pk k.sk k.pk) (hB : Nip44.Spec.B64OK B) (hcfg : Nip44.Spec.CfgOK cfg)
    (henc : ∀ x, x ≠ [] → B.enc x ≠ []) {nonce : Bytes} (hn : nonce.length = 32) {now : Int} {l : Lst} (hl : Reach l)
    (htx : ∀ it ∈ l.items, it.priv = true → Texts it) (hlen : ∀ t, privateText l.items = .ok t → t.length ≤ 61440)
    {it : Item} (hi : it ∈ l.items) (hpr : it.priv = true) (hnf : 1023 < it.value.length)
    {e : Event} (h : toEvent N B cfg now (some nonce) (some k) l = .ok e) : fromEvent N B cfg (some k) e = .err .jsonParse :=
  (written_back hN hB hcfg henc hn hl htx hlen h).2 ⟨it, hi, hpr, fun hf => by have := hf.value; omega⟩

/-- C47: an item with an empty private hint is not read back as it was. -/
theorem C47_empty_refuted : ∃ it : Item, Fits it ∧ Made it ∧ back [it] ≠ [it] :=
  ⟨⟨c!"a", c!"x", some [], none, true⟩, ⟨by decide, by decide, fun t ht => by cases ht; decide, fun t ht => by cases ht⟩,
    ⟨.reference (c!"x") (some []), by show (c!"x") ≠ []; decide, rfl⟩, by decide⟩

/-! ### Concrete cases -/

/-- A list with one public and one private item. -/
def sample (w : Bytes) : Lst :=
  ⟨30001, some (c!"id"), some (c!"T"), none, none,
    [some ⟨c!"t", c!"x", none, none, false⟩, some ⟨c!"word", w, none, none, true⟩] ++ List.replicate 6 none, 2⟩

theorem sample_reach (w : Bytes) (hw : w ≠ []) : Reach (sample w) := by
  have h1 : Reach { create 30001 with d := some (c!"id") } := .d (dup := true) (o := some (c!"id")) (.create 30001)
  have h2 : Reach { create 30001 with d := some (c!"id"), title := some (c!"T") } := .title (dup := true) (o := some (c!"T")) h1
  have h3 := Reach.add (mem := true) (dup := true) (a := .hashtag (c!"x")) (priv := false) h2 rfl
  have h4 := Reach.add (mem := true) (dup := true) (a := .word w) (priv := true) (l' := sample w) (r := none) h3
    (by
      have : item (.word w) true = some ⟨c!"word", w, none, none, true⟩ := by simp [item, hw]
      unfold add; rw [this]; rfl)
  exact h4

example : ∃ e l', toEvent Nip47.Props.sumNc Nip44.Props.toyB64 none 7 (some (List.replicate 32 1)) (some ⟨[1], [1]⟩) (sample (c!"a\"b")) = .ok e ∧
    fromEvent Nip47.Props.sumNc Nip44.Props.toyB64 none (some ⟨[1], [1]⟩) e = .ok l' ∧ l'.items = (sample (c!"a\"b")).items := by
  obtain ⟨e, he⟩ : ∃ e, toEvent Nip47.Props.sumNc Nip44.Props.toyB64 none 7 (some (List.replicate 32 1)) (some ⟨[1], [1]⟩) (sample (c!"a\"b")) = .ok e :=
    ⟨_, rfl⟩
  obtain ⟨l', h1, h2, -⟩ := C47_roundtrip_partial (Nip47.Props.sumNc_ok _ _) Nip44.Props.toyB64_ok (cfg := none) (fun c hc => by cases hc)
    (fun x _ => by simp [Nip44.Props.toyB64]) (by decide) (sample_reach (c!"a\"b") (by decide)) (by
      intro it hi _
      have : it ∈ [⟨c!"t", c!"x", none, none, false⟩, ⟨c!"word", c!"a\"b", none, none, true⟩] := hi
      simp only [List.mem_cons, List.not_mem_nil, or_false] at this
      rcases this with rfl | rfl <;> exact ⟨by decide, by decide, fun t ht => (by cases ht), fun t ht => (by cases ht)⟩)
    (fun t ht => by
      have e : privateText (sample (c!"a\"b")).items = .ok (c!"[[\"word\",\"a\\\"b\"]]") := by decide +kernel
      rw [e] at ht; cases ht; decide) (by
      intro it hi _
      have : it ∈ [⟨c!"t", c!"x", none, none, false⟩, ⟨c!"word", c!"a\"b", none, none, true⟩] := hi
      simp only [List.mem_cons, List.not_mem_nil, or_false] at this
      rcases this with rfl | rfl <;> exact ⟨by decide, by decide, fun t ht => (by cases ht), fun t ht => (by cases ht)⟩) he
  exact ⟨e, l', he, h1, h2.trans (by decide)⟩

/-! ## C104 -/

theorem field_le (max : Nat) : ∀ (f : Nat) (acc p t r : Bytes), acc.length ≤ max → field max f acc p = some (t, r) → t.length ≤ max := by
  intro f
  induction f with
  | zero => intro acc p t r _ h; simp [field] at h
  | succ f ih =>
    intro acc p t r ha h
    cases p with
    | nil => simp only [field, Option.some.injEq, Prod.mk.injEq] at h; rw [← h.1]; exact ha
    | cons c q =>
      have one : ∀ (x : UInt8), ¬ acc.length ≥ max → (acc ++ [x]).length ≤ max := by
        intro x hx; simp only [List.length_append, List.length_singleton]; omega
      simp only [field] at h
      split at h
      · simp only [Option.some.injEq, Prod.mk.injEq] at h; rw [← h.1]; exact ha
      split at h
      · simp at h
      rename_i hm
      split at h
      · split at h
        · exact ih _ _ _ _ (one _ hm) h
        · split at h
          · split at h
            · rename_i hle; exact ih _ _ _ _ (by simpa using hle) h
            · simp at h
          · exact ih _ _ _ _ (one _ hm) h
      · exact ih _ _ _ _ (one _ hm) h

theorem fields_le : ∀ (f k : Nat) (acc : List Bytes) (p : Bytes) (fs : List Bytes) (r : Bytes), (k < 4 → acc.length = k) →
    (∀ (i : Nat) (t : Bytes), acc[i]? = some t → t.length ≤ room i) → fields f k acc p = some (fs, r) →
    ∀ (i : Nat) (t : Bytes), fs[i]? = some t → t.length ≤ room i := by
  intro f
  induction f with
  | zero => intro k acc p fs r _ _ h; simp [fields] at h
  | succ f ih =>
    intro k acc p fs r hk ha h
    simp only [fields] at h
    split at h
    · simp only [Option.some.injEq, Prod.mk.injEq] at h; rw [← h.1]; exact ha
    split at h
    · simp at h
    split at h
    · simp only [Option.some.injEq, Prod.mk.injEq] at h; rw [← h.1]; exact ha
    split at h
    · simp at h
    split at h
    · rename_i h4; exact ih _ _ _ _ _ (fun h => by omega) ha h
    rename_i h4
    split at h
    · simp at h
    · rename_i t r1 hf
      refine ih _ _ _ _ _ (fun _ => by simp [hk (by omega)]) ?_ h
      intro i x hx
      by_cases hi : i < acc.length
      · rw [List.getElem?_append_left hi] at hx; exact ha i x hx
      · rw [List.getElem?_append_right (by omega)] at hx
        have hi0 : i - acc.length = 0 := by
          by_cases h0 : i - acc.length = 0
          · exact h0
          · rw [List.getElem?_eq_none (by simp; omega)] at hx; simp at hx
        rw [hi0] at hx
        simp only [List.getElem?_cons_zero, Option.some.injEq] at hx
        subst hx
        have : i = k := by have := hk (by omega); omega
        subst this
        exact field_le _ _ _ _ _ _ (by simp) hf

/-- What a private item may look like. -/
def WellFormed (it : Item) : Prop := Fits it ∧ it.type ≠ [] ∧ it.value ≠ [] ∧ it.hint ≠ some [] ∧ it.pet ≠ some []

theorem fromFields_wf {fs : List Bytes} (h : ∀ (i : Nat) (t : Bytes), fs[i]? = some t → t.length ≤ room i) {it : Item}
    (hi : fromFields fs = some it) : WellFormed it ∧ it.priv = true := by
  unfold fromFields at hi
  split at hi
  · simp at hi
  rename_i hne
  simp only [Option.some.injEq] at hi
  subst hi
  have hl : ∀ k, (cs fs k).length ≤ room k := by
    intro k
    unfold cs
    have h1 := (List.takeWhile_sublist (p := fun x : UInt8 => decide (x ≠ 0)) (l := fs.getD k [])).length_le
    refine Nat.le_trans h1 ?_
    cases hg : fs[k]? with
    | none => simp [List.getD, hg]
    | some t => simpa [List.getD, hg] using h k t hg
  have ho : ∀ k t, t ∈ opt (cs fs k) → t.length ≤ room k := by
    intro k t ht
    unfold opt at ht
    split at ht
    · cases ht
    · cases ht; exact hl k
  have hs : ∀ t, opt t ≠ some [] := by
    intro t; unfold opt; split
    · simp
    · simpa using ‹¬ t = []›
  exact ⟨⟨⟨hl 0, hl 1, ho 2, ho 3⟩, fun h => hne (.inl h), fun h => hne (.inr h), hs _, hs _⟩, rfl⟩

theorem addItem_any {l : Lst} {s : List Item} (it : Item) (h : Rep l s) : ∃ l1, (addItem true true l it = .ok (l1, none) ∧ Rep l1 (s ++ [it]) ∨
    addItem true true l it = .ok (l1, some .memory) ∧ Rep l1 s) := by
  rcases addItem_spec true true it h with ⟨-, l1, e, hr, -⟩ | ⟨-, l1, e, hr⟩
  · exact ⟨l1, .inl ⟨e, hr⟩⟩
  · exact ⟨l1, .inr ⟨e, hr⟩⟩

theorem parseItems_any : ∀ (f : Nat) (l : Lst) (s : List Item) (p : Bytes), Rep l s → (∀ it ∈ s, it.priv = true → WellFormed it) →
    parseItems f l p ≠ .ub ∧ ∀ l', parseItems f l p = .ok l' → ∃ s', Rep l' s' ∧ ∀ it ∈ s', it.priv = true → WellFormed it := by
  intro f
  induction f with
  | zero => intro l s p _ _; simp [parseItems]
  | succ f ih =>
    intro l s p hr hs
    unfold parseItems
    have done : (Res.ok l ≠ Res.ub) ∧ ∀ l', Res.ok l = Res.ok l' → ∃ s', Rep l' s' ∧ ∀ it ∈ s', it.priv = true → WellFormed it :=
      ⟨by simp, fun l' h => by cases h; exact ⟨s, hr, hs⟩⟩
    split
    · exact done
    split
    · simp
    split
    · exact done
    split
    · simp
    split
    · simp
    rename_i fs r1 hf
    split
    · exact ih _ _ _ hr hs
    rename_i it hit
    have hw := fromFields_wf (fields_le _ 0 [] _ _ _ (fun _ => rfl) (fun i t h => by simp at h) hf) hit
    obtain ⟨l1, h | h⟩ := addItem_any it hr
    · simp only [h.1, Res.bind_ok]
      refine ih _ _ _ h.2 fun j hj hjp => ?_
      rcases List.mem_append.1 hj with hj | hj
      · exact hs j hj hjp
      · rw [List.mem_singleton.1 hj]; exact hw.1
    · rw [h.1]; simp

theorem readTags_any : ∀ (ts : List (List Bytes)) (l : Lst) (s : List Item), Rep l s → (∀ it ∈ s, it.priv = false) →
    readTags l ts ≠ .ub ∧ ∀ l', readTags l ts = .ok l' → ∃ s', Rep l' s' ∧ ∀ it ∈ s', it.priv = false := by
  intro ts
  induction ts with
  | nil => intro l s hr hs; exact ⟨by simp [readTags], fun l' h => by simp only [readTags, Res.ok.injEq] at h; subst h; exact ⟨s, hr, hs⟩⟩
  | cons t ts ih =>
    intro l s hr hs
    simp only [readTags]
    have key : (∃ l1 s1, readTag l t = .ok l1 ∧ Rep l1 s1 ∧ ∀ it ∈ s1, it.priv = false) ∨ ∃ e, readTag l t = .err e := by
      unfold readTag
      split
      · repeat' split
        · exact .inl ⟨_, s, rfl, hr, hs⟩
        · exact .inl ⟨_, s, rfl, hr, hs⟩
        · exact .inl ⟨_, s, rfl, hr, hs⟩
        · exact .inl ⟨_, s, rfl, hr, hs⟩
        · rename_i n v r _ _ _ _
          obtain ⟨l1, h | h⟩ := addItem_any ⟨n, v, r.head?, (r.drop 1).head?, false⟩ hr
          · rw [h.1]
            refine .inl ⟨l1, _, rfl, h.2, fun j hj => ?_⟩
            rcases List.mem_append.1 hj with hj | hj
            · exact hs j hj
            · rw [List.mem_singleton.1 hj]
          · rw [h.1]; exact .inr ⟨.memory, rfl⟩
      · exact .inl ⟨_, s, rfl, hr, hs⟩
    rcases key with ⟨l1, s1, e, hr1, hs1⟩ | ⟨e, he⟩
    · rw [e]; exact ih l1 s1 hr1 hs1
    · rw [he]; simp

theorem decrypt_noub {N : Nip44.Nc} {B : Nip44.B64} {cfg : Option Config.Config} (hcfg : Nip44.Spec.CfgOK cfg) (sk pk t : Bytes) :
    Nip44.decrypt N B cfg sk pk t ≠ .ub := by
  have hu : ∀ p, Nip44.unpad cfg p ≠ .ub := by
    intro p
    unfold Nip44.unpad
    split
    · rename_i b0 b1 rest
      simp only
      split
      · simp
      rename_i h1
      split
      · simp
      rename_i h2
      split
      · rename_i h3
        have hm := Nip44.maxSize_le hcfg
        have := (Nip44.paddedLen_ge (len := b0.toNat * 256 + b1.toNat) (by omega)).1
        simp only [List.length_cons] at h2
        omega
      · simp
    · simp
  unfold Nip44.decrypt Nip44.decryptPayload
  simp only
  repeat' split
  all_goals first | exact hu _ | (intro h; cases h)

/-- C104: whatever an event contains, and whatever its content decrypts to, reading it as a list is free of undefined
behaviour, and what is returned is a list with at most 4096 items whose private items are within the documented bounds. -/
theorem C104_read_any (N : Nip44.Nc) (B : Nip44.B64) {cfg : Option Config.Config} (hcfg : Nip44.Spec.CfgOK cfg) (keys : Option Keys) (e : Event) :
    fromEvent N B cfg keys e ≠ .ub ∧
    ∀ l, fromEvent N B cfg keys e = .ok l → l.count = l.items.length ∧ l.items.length ≤ 4096 ∧
      (keys = none → ∀ it ∈ l.items, it.priv = false) ∧ ∀ it ∈ l.items, it.priv = true → WellFormed it := by
  have fin : ∀ {l : Lst} {s : List Item}, Rep l s → l.items = s ∧ l.count = l.items.length ∧ l.items.length ≤ 4096 := by
    intro l s h
    rw [rep_items h]
    obtain ⟨h1, k, h2, h3, h4⟩ := h
    exact ⟨rfl, h1, by omega⟩
  obtain ⟨r1, r2⟩ := readTags_any e.tags (create e.kind) [] (rep_create _) (by simp)
  unfold fromEvent
  cases hr : readTags (create e.kind) e.tags with
  | ub => exact absurd hr r1
  | err x => simp
  | ok l =>
    simp only [Res.bind_ok]
    obtain ⟨s, hs, hp⟩ := r2 l hr
    have hpw : ∀ it ∈ s, it.priv = true → WellFormed it := fun it hi h => by rw [hp it hi] at h; simp at h
    have plain : Res.ok l ≠ Res.ub ∧ ∀ l1, Res.ok l = Res.ok l1 → l1.count = l1.items.length ∧ l1.items.length ≤ 4096 ∧
        (keys = none → ∀ it ∈ l1.items, it.priv = false) ∧ ∀ it ∈ l1.items, it.priv = true → WellFormed it := by
      refine ⟨by simp, fun l1 h => ?_⟩
      cases h
      obtain ⟨f1, f2, f3⟩ := fin hs
      exact ⟨f2, f3, fun _ it hi => hp it (f1 ▸ hi), fun it hi => hpw it (f1 ▸ hi)⟩
    cases keys with
    | none => exact plain
    | some k =>
      simp only
      split
      · exact plain
      cases hd : Nip44.decrypt N B cfg k.sk k.pk e.text with
      | ub => exact absurd hd (decrypt_noub hcfg _ _ _)
      | err x => simp
      | ok t =>
        simp only [Res.bind_ok]
        unfold parsePrivate
        split
        · exact plain
        split
        · simp
        rename_i c r _
        obtain ⟨p1, p2⟩ := parseItems_any (r.length + 1) l s r hs hpw
        refine ⟨p1, fun l1 h => ?_⟩
        obtain ⟨s1, hs1, hw1⟩ := p2 l1 h
        obtain ⟨f1, f2, f3⟩ := fin hs1
        exact ⟨f2, f3, by simp, fun it hi => hw1 it (f1 ▸ hi)⟩

example : fromEvent Nip47.Props.sumNc Nip44.Props.toyB64 none none ⟨[], [], 0, 10000, [[c!"p", c!"k"], [c!"x"], [c!"title", c!"T"]], none, []⟩ =
    .ok { create 10000 with title := some (c!"T"), slots := some ⟨c!"p", c!"k", none, none, false⟩ :: List.replicate 7 none, count := 1 } := by
  decide +kernel

end Nostr.Nip51.Props
