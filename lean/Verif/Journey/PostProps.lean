import Verif.Journey.Post
import Verif.Journey.Props
import Verif.Journey.MailProps
import Verif.Nip10.Props
import Verif.Nip13.Props
import Verif.Nip18.Props
import Verif.Nip21.Accept
import Verif.Nip25.Props
import Verif.Nip26.Props
import Verif.Nip51.Props
import Verif.Nip65.Props
import Verif.Zap.Props

/-! # Property C205: what is made with the library arrives and is understood -/

namespace Nostr.Journey.Post.Props
open Nostr Nostr.Event Nostr.Json Nostr.Filter Nostr.Journey.Spec Nostr.Journey.Post

/-! ## Lemmas -/

/-- Kind, tags and content as C has them. -/
structure Ready (e : Event) : Prop where
  kind : e.kind < 65536
  tags : ∀ t ∈ e.tags, t ≠ [] ∧ ∀ v ∈ t, CStr v
  content : CStr e.text

theorem cstr_decNat (n : Nat) : CStr (Num.decNat n) := fun h => absurd (Num.decNat_digits n 0 h) (by decide)
theorem cstr_decInt (n : Int) : CStr (Num.decInt n) := fun h => absurd (Num.decInt_chars n 0 h) (by decide)
theorem cstr_nil : CStr [] := by simp [CStr]
theorem cstr_append {a b : Bytes} (ha : CStr a) (hb : CStr b) : CStr (a ++ b) := fun h => (List.mem_append.1 h).elim ha hb
theorem cstr_take {a : Bytes} (n : Nat) (ha : CStr a) : CStr (a.take n) := fun h => ha (List.mem_of_mem_take h)
theorem takeWhile_cstr (s : Bytes) : CStr (s.takeWhile (· ≠ 0)) := by
  induction s with
  | nil => exact cstr_nil
  | cons x s ih =>
    rw [List.takeWhile_cons]
    by_cases hx : x = 0
    · rw [if_neg (by simp [hx])]; exact cstr_nil
    · rw [if_pos (by simp [hx])]
      intro h
      rcases List.mem_cons.1 h with h | h
      · exact hx h.symm
      · exact ih h
theorem cstr_getD {o : Option Bytes} {d : Bytes} (h : ∀ t ∈ o, CStr t) (hd : CStr d) : CStr (o.getD d) := by
  cases o with
  | none => exact hd
  | some t => exact h t rfl

theorem Ready.add {cfg : Option Config.Config} {e e1 : Event} {vs : List Bytes} (w : Ready e) (h : addTag cfg e vs = .ok e1)
    (hv : ∀ v ∈ vs, CStr v) : Ready e1 := by
  have hne : vs ≠ [] := by
    intro h0
    unfold addTag at h
    rw [if_pos h0] at h
    cases h
  rw [Nip10.Props.addTag_ok h]
  refine ⟨w.kind, ?_, w.content⟩
  intro t ht
  rcases List.mem_append.1 ht with ht | ht
  · exact w.tags t ht
  · rw [List.mem_singleton.1 ht]; exact ⟨hne, hv⟩

theorem Ready.blank (now : Int) {k : Nat} (hk : k < 65536) {c : Option Bytes} (hc : ∀ t ∈ c, CStr t) :
    Ready { zero with createdAt := now, kind := k, content := c } :=
  ⟨hk, (by intro t ht; cases ht), cstr_getD hc cstr_nil⟩

theorem Ready.all {cfg : Option Config.Config} : ∀ {ts : List (List Bytes)} {e e1 : Event}, Ready e → Nip51.addAll cfg e ts = .ok e1 →
    (∀ t ∈ ts, ∀ v ∈ t, CStr v) → Ready e1 := by
  intro ts
  induction ts with
  | nil => intro e e1 w h _; cases h; exact w
  | cons t ts ih =>
    intro e e1 w h hv
    obtain ⟨e2, h1, h2⟩ := Res.bind_eq_ok.1 h
    exact ih (w.add h1 (hv t (by simp))) h2 fun t ht => hv t (by simp [ht])

theorem encrypt_cstr {N : Nip44.Nc} {B : Nip44.B64} (hB : Gift.Spec.Standard B) {cfg : Option Config.Config} {nonce : Option Bytes} {sk pk m t : Bytes}
    (h : Nip44.encrypt N B cfg nonce sk pk m = .ok t) : CStr t := by
  unfold Nip44.encrypt at h
  cases nonce with
  | none => cases h
  | some n =>
    obtain ⟨p, -, h⟩ := Res.bind_eq_ok.1 h
    cases hc : N.conv sk pk with
    | none => rw [hc] at h; cases h
    | some ck =>
      rw [hc] at h
      simp only [Res.ok.injEq] at h
      rw [← h]
      intro h0
      rcases hB.chars _ _ h0 with h0 | h0
      · revert h0; decide
      · revert h0; decide

theorem begin_ready {D : Desk} (hB : Gift.Spec.Standard D.b64) {now : Int} {s : Start} (hp : s.Proper) {e : Event} (h : begin_ D now s = .ok e) : Ready e := by
  cases s with
  | blank => cases h; exact Ready.blank now (k := 0) (c := none) (by omega) (by intro t ht; cases ht)
  | reaction c i p r k =>
    obtain ⟨p1, p2, p3, p4, p5⟩ := hp
    simp only [begin_] at h
    unfold Nip25.create at h
    split at h
    · cases h
    obtain ⟨e1, h1, h⟩ := Res.bind_eq_ok.1 h
    obtain ⟨e2, h2, h⟩ := Res.bind_eq_ok.1 h
    have w0 := Ready.blank now (k := 7) (c := some (c.getD (c!"+"))) (by omega) (by
      intro t ht; cases ht; exact cstr_getD p1 (by decide))
    have w1 := w0.add h1 (by
      intro v hv
      simp only [List.mem_cons, List.not_mem_nil, or_false] at hv
      rcases hv with rfl | rfl | rfl | rfl
      · decide
      · exact p2
      · exact cstr_getD p4 cstr_nil
      · exact p3)
    have w2 := w1.add h2 (by
      intro v hv
      simp only [List.mem_append, List.mem_cons, List.not_mem_nil, or_false, Option.mem_toList] at hv
      rcases hv with (rfl | rfl) | hv
      · decide
      · exact p3
      · exact p4 v hv)
    by_cases hk : k > 0
    · rw [if_pos hk] at h
      refine w2.add h ?_
      intro v hv
      simp only [List.mem_cons, List.not_mem_nil, or_false] at hv
      rcases hv with rfl | rfl
      · decide
      · exact cstr_decNat k
    · rw [if_neg hk] at h
      cases h
      exact w2
  | repost i p r k d j =>
    obtain ⟨p1, p2, p3, p4, p5, p6⟩ := hp
    simp only [begin_] at h
    unfold Nip18.repostCreate at h
    split at h
    · cases h
    obtain ⟨e1, h1, h⟩ := Res.bind_eq_ok.1 h
    obtain ⟨e2, h2, h⟩ := Res.bind_eq_ok.1 h
    obtain ⟨e3, h3, h⟩ := Res.bind_eq_ok.1 h
    have w0 := Ready.blank now (k := if k = 1 then 6 else 16) (c := some (j.getD [])) (by split <;> omega) (by
      intro t ht; cases ht; exact cstr_getD p6 cstr_nil)
    have w1 := w0.add h1 (by
      intro v hv
      simp only [List.mem_cons, List.not_mem_nil, or_false] at hv
      rcases hv with rfl | rfl | rfl
      · decide
      · exact p1
      · exact p3)
    have w2 := w1.add h2 (by
      intro v hv
      simp only [List.mem_cons, List.not_mem_nil, or_false] at hv
      rcases hv with rfl | rfl
      · decide
      · exact p2)
    have w3 : Ready e3 := by
      by_cases hk : (if k = 1 then 6 else 16) = 16
      · rw [if_pos hk] at h3
        refine w2.add h3 ?_
        intro v hv
        simp only [List.mem_cons, List.not_mem_nil, or_false] at hv
        rcases hv with rfl | rfl
        · decide
        · exact cstr_decNat k
      · rw [if_neg hk] at h3
        cases h3
        exact w2
    cases d with
    | none => cases h; exact w3
    | some d =>
      refine w3.add h ?_
      intro v hv
      simp only [List.mem_cons, List.not_mem_nil, or_false] at hv
      rcases hv with rfl | rfl
      · decide
      · exact cstr_append (cstr_append (cstr_append (cstr_append (cstr_decNat k) (by decide)) p2) (by decide)) (p5 d rfl)
  | zap a r u c rs =>
    obtain ⟨p1, p2, p3⟩ := hp
    simp only [begin_] at h
    unfold Zap.createRequest at h
    split at h
    · cases h
    obtain ⟨e1, h1, h⟩ := Res.bind_eq_ok.1 h
    obtain ⟨e2, h2, h⟩ := Res.bind_eq_ok.1 h
    obtain ⟨e3, h3, h⟩ := Res.bind_eq_ok.1 h
    obtain ⟨x, h4, h⟩ := Res.bind_eq_ok.1 h
    have w0 := Ready.blank now (k := 9734) (c := c.filter (· ≠ [])) (by omega) (by
      intro t ht; exact p2 t (by
        cases c with
        | none => cases ht
        | some y =>
          simp only [Option.mem_def, Option.filter_eq_some_iff] at ht
          exact ht.1))
    have w1 := w0.add h1 (by
      intro v hv
      unfold Zap.relayTag at hv
      rcases List.mem_cons.1 hv with rfl | hv
      · decide
      · exact p3 v (List.mem_of_mem_take hv))
    have w2 := w1.add h2 (by
      intro v hv
      simp only [List.mem_cons, List.not_mem_nil, or_false] at hv
      rcases hv with rfl | rfl
      · decide
      · exact cstr_decNat a)
    have w3 : Ready e3 := by
      cases u with
      | none => cases h3; exact w2
      | some u =>
        refine w2.add h3 ?_
        intro v hv
        simp only [List.mem_cons, List.not_mem_nil, or_false] at hv
        rcases hv with rfl | rfl
        · decide
        · exact p1 _ rfl
    refine w3.add h ?_
    intro v hv
    simp only [List.mem_cons, List.not_mem_nil, or_false] at hv
    rcases hv with rfl | rfl
    · decide
    · unfold Hex.keyToHex at h4
      rw [if_neg (by omega)] at h4
      cases h4
      exact hexText_cstr _
  | relays l =>
    simp only [begin_] at h
    unfold Nip65.toEvent at h
    refine (Ready.blank now (k := 10002) (c := some []) (by omega) (by intro t ht; cases ht; exact cstr_nil)).all h ?_
    intro t ht
    obtain ⟨x, hx, rfl⟩ := List.mem_map.1 ht
    intro v hv
    unfold Nip65.entryTag at hv
    have hu := hp x hx
    split at hv
    · simp only [List.mem_cons, List.not_mem_nil, or_false] at hv
      rcases hv with rfl | rfl | rfl
      · decide
      · exact hu
      · split <;> decide
    · simp only [List.mem_cons, List.not_mem_nil, or_false] at hv
      rcases hv with rfl | rfl
      · decide
      · exact hu
  | list n k l =>
    obtain ⟨p1, p2, p3⟩ := hp
    simp only [begin_] at h
    unfold Nip51.toEvent at h
    split at h
    · cases h
    obtain ⟨e1, h1, h⟩ := Res.bind_eq_ok.1 h
    have w0 : Ready { zero with kind := l.kind, createdAt := now } := Ready.blank now (c := none) p1 (by intro t ht; cases ht)
    have w1 := w0.all h1 (by
      intro t ht
      rcases List.mem_append.1 ht with ht | ht
      · unfold Nip51.headTags at ht
        split at ht
        · simp only [List.mem_append, List.mem_cons, List.not_mem_nil, or_false, Option.mem_toList, Option.map_eq_some_iff] at ht
          rcases ht with ((ht | ⟨s, hs, ht⟩) | ⟨s, hs, ht⟩) | ⟨s, hs, ht⟩
          · rw [ht]
            intro v hv
            simp only [List.mem_cons, List.not_mem_nil, or_false] at hv
            rcases hv with rfl | rfl
            · decide
            · exact cstr_getD (fun t ht => p2 l.d (by simp) t ht) cstr_nil
          all_goals
            rw [← ht]
            intro v hv
            simp only [List.mem_cons, List.not_mem_nil, or_false] at hv
            rcases hv with rfl | rfl
            · decide
            · exact p2 _ (by simp) _ hs
        · cases ht
      · obtain ⟨x, hx, rfl⟩ := List.mem_map.1 ht
        obtain ⟨q1, q2, q3, q4⟩ := p3 x (List.mem_filter.1 hx).1
        intro v hv
        unfold Nip51.itemTag at hv
        rcases List.mem_append.1 hv with hv | hv
        · simp only [List.mem_cons, List.not_mem_nil, or_false] at hv
          rcases hv with rfl | rfl
          · exact q1
          · exact q2
        · cases hpet : x.pet with
          | none =>
            rw [hpet] at hv
            exact q3 v (by simpa using hv)
          | some p =>
            rw [hpet] at hv
            simp only [List.mem_cons, List.not_mem_nil, or_false] at hv
            rcases hv with rfl | rfl
            · exact cstr_getD q3 cstr_nil
            · exact q4 _ hpet)
    have wc : ∀ t, CStr t → Ready { e1 with content := some t } := fun t ht => ⟨w1.kind, w1.tags, ht⟩
    cases k with
    | none => cases h; exact wc _ cstr_nil
    | some k =>
      simp only at h
      split at h
      · obtain ⟨t, -, h⟩ := Res.bind_eq_ok.1 h
        obtain ⟨ct, h2, h⟩ := Res.bind_eq_ok.1 h
        cases h
        exact wc _ (encrypt_cstr hB h2)
      · cases h; exact wc _ cstr_nil

theorem addE_ready {cfg : Option Config.Config} {e e1 : Event} (w : Ready e) {x : Nip10.Ref} (hx : RefProper x) {m : Bytes} (hm : CStr m)
    (h : Nip10.addE cfg e x.id x.relay m x.pubkey = .ok e1) : Ready e1 := by
  refine w.add h ?_
  intro v hv
  simp only [List.mem_append, List.mem_cons, List.not_mem_nil, or_false, Option.mem_toList] at hv
  rcases hv with (rfl | rfl | rfl | rfl) | hv
  · decide
  · exact hx.1
  · exact cstr_getD hx.2.1 cstr_nil
  · exact hm
  · exact hx.2.2 v hv

theorem nonce_ready {cfg : Option Config.Config} {e e1 : Event} (w : Ready e) {n : Nat} {t : Int} (h : Nip13.addNonce cfg e n t = .ok e1) : Ready e1 := by
  unfold Nip13.addNonce at h
  split at h
  · rename_i i hi
    obtain ⟨t', h1, h⟩ := Res.bind_eq_ok.1 h
    cases h
    refine ⟨w.kind, ?_, w.content⟩
    intro u hu
    rcases List.mem_or_eq_of_mem_set hu with hu | rfl
    · exact w.tags u hu
    · have hold : ∀ v ∈ e.tags.getD i [], CStr v := by
        intro v hv
        by_cases hl : i < e.tags.length
        · rw [List.getD_eq_getElem?_getD, List.getElem?_eq_getElem hl] at hv
          exact (w.tags _ (List.getElem_mem hl)).2 v hv
        · rw [List.getD_eq_getElem?_getD, List.getElem?_eq_none (by omega)] at hv
          cases hv
      unfold Nip13.updateNonce at h1
      generalize e.tags.getD i [] = old at h1 hold
      split at h1
      · cases h1
      · cases h1
      · split at h1
        · cases h1
          refine ⟨by simp, ?_⟩
          intro v hv
          simp only [List.mem_cons] at hv
          rcases hv with rfl | rfl | rfl | hv
          · exact hold _ (by simp)
          · exact cstr_decNat n
          · exact cstr_decInt t
          · exact hold v (by simp [List.mem_of_mem_drop hv])
        · cases h1
          refine ⟨by simp, ?_⟩
          intro v hv
          simp only [List.mem_cons, List.not_mem_nil, or_false] at hv
          rcases hv with rfl | rfl
          · exact hold _ (by simp)
          · exact cstr_decNat n
  · refine w.add h ?_
    intro v hv
    split at hv
    · simp only [List.mem_cons, List.not_mem_nil, or_false] at hv
      rcases hv with rfl | rfl | rfl
      · decide
      · exact cstr_decNat n
      · exact cstr_decInt t
    · simp only [List.mem_cons, List.not_mem_nil, or_false] at hv
      rcases hv with rfl | rfl
      · decide
      · exact cstr_decNat n

theorem mineLoop_ready {E : Nip13.Env} {t : Int} {m : Nat} : ∀ {f i : Nat} {e e1 : Event}, Ready e → Nip13.mineLoop E t m f i e = some (.ok e1) → Ready e1 := by
  intro f
  induction f with
  | zero => intro i e e1 _ h; cases h
  | succ f ih =>
    intro i e e1 w h
    unfold Nip13.mineLoop at h
    split at h
    · split at h
      · rename_i e2 h2
        have w2 := nonce_ready w h2
        split at h
        · rename_i e3 h3
          obtain ⟨x, -, rfl⟩ := Gift.computeId_ok h3
          have w3 : Ready { e2 with createdAt := E.clock i, id := E.crypto.sha256 x } := ⟨w2.kind, w2.tags, w2.content⟩
          split at h
          · cases h; exact w3
          · exact ih w3 h
        · cases h
        · cases h
      · cases h
      · cases h
    · cases h

theorem mine_ready {E : Nip13.Env} {t : Int} {m f : Nat} {e e1 : Event} (w : Ready e) (h : Nip13.mine E t m f e = some (.ok e1)) : Ready e1 := by
  unfold Nip13.mine at h
  split at h
  · cases h
  split at h
  · rename_i e2 h2
    refine mineLoop_ready ?_ h
    unfold Nip13.ensureNonce at h2
    split at h2
    · cases h2; exact w
    · exact nonce_ready w h2
  · cases h
  · cases h

theorem relay_cstr {rs : List Nip21.Spec.Rec} {u : Bytes} (h : u ∈ Nip21.Props.relaysOf rs) : CStr u := by
  have := (List.mem_filter.1 (List.mem_of_mem_take h)).2
  intro h0
  have := (of_decide_eq_true this).2.2.2 0 h0
  revert this
  decide

theorem first_cstr {rs : List Nip21.Spec.Rec} : CStr ((Nip21.Props.relaysOf rs).headD []) := by
  cases h : Nip21.Props.relaysOf rs with
  | nil => exact cstr_nil
  | cons a l => exact relay_cstr (rs := rs) (by rw [h]; simp)

theorem uriParse_event {junk s : Bytes} {n : Nip21.NEvent} (h : Nip21.uriParse junk s = .ok (.nevent n)) : ∃ x, Nip21.neventDecode x = .ok n := by
  unfold Nip21.uriParse at h
  split at h
  · cases h
  simp only [] at h
  repeat' split at h
  all_goals first
    | (obtain ⟨a, ha, hb⟩ := Nip18.Props.map_ok h; cases hb; exact ⟨_, ha⟩)
    | (obtain ⟨a, ha, hb⟩ := Nip18.Props.map_ok h; cases hb)
    | cases h

theorem uriParse_address {junk s : Bytes} {n : Nip21.NAddr} (h : Nip21.uriParse junk s = .ok (.naddr n)) : ∃ x, Nip21.naddrDecode x = .ok n := by
  unfold Nip21.uriParse at h
  split at h
  · cases h
  simp only [] at h
  repeat' split at h
  all_goals first
    | (obtain ⟨a, ha, hb⟩ := Nip18.Props.map_ok h; cases hb; exact ⟨_, ha⟩)
    | (obtain ⟨a, ha, hb⟩ := Nip18.Props.map_ok h; cases hb)
    | cases h

theorem quoteTag_cstr {junk s : Bytes} {u : Nip21.Uri} (h : Nip21.uriParse junk s = .ok u) {t : List Bytes} (ht : Nip18.quoteTag u = some t) :
    ∀ v ∈ t, CStr v := by
  cases u with
  | note id =>
    cases ht
    intro v hv
    simp only [List.mem_cons, List.not_mem_nil, or_false] at hv
    rcases hv with rfl | rfl | rfl | rfl
    · decide
    · exact hexText_cstr _
    · exact cstr_nil
    · exact cstr_nil
  | nevent n =>
    cases ht
    obtain ⟨x, hx⟩ := uriParse_event h
    obtain ⟨rs, -, -, -, -, g, -⟩ := (Nip21.Props.C117_event _ _).1 hx
    intro v hv
    simp only [List.mem_cons, List.not_mem_nil, or_false] at hv
    rcases hv with rfl | rfl | rfl | rfl
    · decide
    · exact hexText_cstr _
    · rw [g]; exact first_cstr
    · refine cstr_getD ?_ cstr_nil
      intro t ht
      obtain ⟨a, -, rfl⟩ := Option.map_eq_some_iff.1 ht
      exact hexText_cstr _
  | naddr n =>
    cases ht
    obtain ⟨x, hx⟩ := uriParse_address h
    obtain ⟨rs, k, w, -, -, -, -, g1, -, -, -, g2⟩ := (Nip21.Props.C117_address _ _).1 hx
    intro v hv
    simp only [List.mem_cons, List.not_mem_nil, or_false] at hv
    rcases hv with rfl | rfl | rfl | rfl
    · decide
    · refine cstr_take _ (cstr_append (cstr_append (cstr_append (cstr_append (cstr_decNat _) (by decide)) (hexText_cstr _)) (by decide)) ?_)
      rw [g1]
      intro h0
      exact takeWhile_cstr w h0
    · rw [g2]; exact first_cstr
    · exact cstr_nil
  | npub k => cases ht
  | nsec k => cases ht
  | nprofile k => cases ht
  | nrelay k => cases ht

theorem quotes_ready {cfg : Option Config.Config} {junk : Nat → Bytes} : ∀ {f : Nat} {e : Event} {pos : Bytes} {e1 : Event} {x : Option Err}, Ready e →
    Nip18.quoteLoop cfg junk f e pos = .ok (e1, x) → Ready e1 := by
  intro f
  induction f with
  | zero => intro e pos e1 x w h; cases h; exact w
  | succ f ih =>
    intro e pos e1 x w h
    unfold Nip18.quoteLoop at h
    split at h
    · cases h; exact w
    · split at h
      · cases h
      · exact ih w h
      · rename_i u hu
        split at h
        · exact ih w h
        · rename_i t ht
          split at h
          · rename_i e2 h2
            exact ih (w.add h2 (quoteTag_cstr hu ht)) h
          · cases h; exact w
          · cases h

theorem step_ready {D : Desk} {e e1 : Event} {o : Op} (w : Ready e) (hp : o.Proper) (h : step D e o = .ok e1) : Ready e1 := by
  cases o with
  | content t => cases h; exact ⟨w.kind, w.tags, hp⟩
  | kind k => cases h; exact ⟨hp, w.tags, w.content⟩
  | time t => cases h; exact ⟨w.kind, w.tags, w.content⟩
  | author t => cases h; exact ⟨w.kind, w.tags, w.content⟩
  | tag vs => exact w.add h hp
  | reply a b =>
    obtain ⟨p1, p2⟩ := hp
    unfold step at h
    simp only at h
    generalize hr : Nip10.addReplyTags D.host.cfg e a b = r at h
    obtain ⟨e2, x⟩ := r
    cases x with
    | some x => cases h
    | none =>
      cases h
      unfold Nip10.addReplyTags at hr
      split at hr
      · cases hr
      have hb : ∀ e2 e3, Ready e2 → (match b with
          | some r => Nip10.addE D.host.cfg e2 r.id r.relay (c!"reply") r.pubkey
          | none => .ok e2) = .ok e3 → Ready e3 := by
        intro e2 e3 w2 h2
        cases b with
        | none => cases h2; exact w2
        | some y => exact addE_ready w2 (p2 y rfl) (by decide) h2
      have ha : ∀ e2, (match a with
          | some r => Nip10.addE D.host.cfg e r.id r.relay (c!"root") r.pubkey
          | none => .ok e) = .ok e2 → Ready e2 := by
        intro e2 h2
        cases a with
        | none => cases h2; exact w
        | some y => exact addE_ready w (p1 y rfl) (by decide) h2
      simp only [] at hr
      split at hr
      · rename_i e2 h2
        split at hr
        · rename_i e3 h3
          cases hr
          exact hb _ _ (ha _ h2) h3
        · cases hr
        · cases hr
      · cases hr
      · cases hr
  | mention p r =>
    refine w.add (show addTag D.host.cfg e ([c!"p", p] ++ r.toList) = .ok e1 from h) ?_
    intro v hv
    simp only [List.mem_append, List.mem_cons, List.not_mem_nil, or_false, Option.mem_toList] at hv
    rcases hv with (rfl | rfl) | hv
    · decide
    · exact hp.1
    · exact hp.2 v hv
  | nonce n t => exact nonce_ready w h
  | mine t m f c =>
    unfold step at h
    simp only at h
    generalize hr : Nip13.mine ⟨D.host.cfg, D.crypto, D.host.b, c⟩ t m f e = r at h
    cases r with
    | none => cases h
    | some r => cases h; exact mine_ready w hr
  | delegation d =>
    refine w.add (show addTag D.host.cfg e [c!"delegation", Hex.hexEncode d.delegator, d.conditions, Hex.hexEncode d.token] = .ok e1 from h) ?_
    intro v hv
    simp only [List.mem_cons, List.not_mem_nil, or_false] at hv
    rcases hv with rfl | rfl | rfl | rfl
    · decide
    · exact hexText_cstr _
    · exact hp
    · exact hexText_cstr _
  | quotes j =>
    obtain ⟨⟨e2, x⟩, h1, h⟩ := Res.bind_eq_ok.1 h
    cases x with
    | some x => cases h
    | none => cases h; exact quotes_ready w h1

theorem steps_ready {D : Desk} : ∀ {os : List Op} {e e1 : Event}, Ready e → (∀ o ∈ os, o.Proper) → steps D e os = .ok e1 → Ready e1 := by
  intro os
  induction os with
  | nil => intro e e1 w _ h; cases h; exact w
  | cons o os ih =>
    intro e e1 w hp h
    obtain ⟨e2, h1, h⟩ := Res.bind_eq_ok.1 h
    exact ih (step_ready w (hp o (by simp)) h1) (fun o ho => hp o (by simp [ho])) h

/-- What signing leaves as it was, and that the result is whole. -/
theorem signed {C : Crypto} (hC : Event.Props.CryptoOK C) (hS : Gift.Spec.Sizes C) {b : Build} {rand : Option Bytes} {sk : Bytes} {x e : Event} (w : Ready x)
    (hs : sign C b rand sk x = .ok e) (ht : e.createdAt.natAbs < 10 ^ 15) :
    Event.Spec.WF e ∧ C.pubOf sk = some e.pubkey ∧ e.createdAt = x.createdAt ∧ e.kind = x.kind ∧ e.tags = x.tags ∧ e.content = x.content := by
  obtain ⟨pk, t, r, sig, g1, g2, g3, g4, g5⟩ := Gift.sign_ok hs
  refine ⟨⟨?_, ?_, ?_, ?_, ?_, ?_, ?_⟩, by rw [g5]; exact g1, by rw [g5], by rw [g5], by rw [g5], by rw [g5]⟩
  · rw [g5]; exact hC.hash t
  · rw [g5]; exact hS.pub _ _ g1
  · rw [g5]; exact hS.sig _ _ _ _ g4
  · constructor <;> omega
  · rw [g5]; exact w.kind
  · rw [g5]; exact w.tags
  · rw [g5]; exact w.content

theorem reply_content {cfg : Option Config.Config} {x y : Event} {a b : Option Nip10.Ref} {r : Option Err} (h : Nip10.addReplyTags cfg x a b = (y, r)) :
    y.content = x.content := by
  have hE : ∀ (x y : Event) (z : Nip10.Ref) (m : Bytes), Nip10.addE cfg x z.id z.relay m z.pubkey = .ok y → y.content = x.content := by
    intro x y z m h
    rw [Nip10.Props.addTag_ok h]
  unfold Nip10.addReplyTags at h
  split at h
  · cases h; rfl
  have hb : ∀ e2 e3, (match b with
      | some r => Nip10.addE cfg e2 r.id r.relay (c!"reply") r.pubkey
      | none => .ok e2) = .ok e3 → e3.content = e2.content := by
    intro e2 e3 h2
    cases b with
    | none => cases h2; rfl
    | some y => exact hE _ _ _ _ h2
  have ha : ∀ e2, (match a with
      | some r => Nip10.addE cfg x r.id r.relay (c!"root") r.pubkey
      | none => .ok x) = .ok e2 → e2.content = x.content := by
    intro e2 h2
    cases a with
    | none => cases h2; rfl
    | some y => exact hE _ _ _ _ h2
  simp only [] at h
  split at h
  · rename_i e2 h2
    split at h
    · rename_i e3 h3
      cases h
      rw [hb _ _ h3, ha _ h2]
    · cases h; exact ha _ h2
    · cases h; exact ha _ h2
  · cases h; rfl
  · cases h; rfl

theorem steps_append {D : Desk} : ∀ (os : List Op) (e : Event) (ps : List Op), steps D e (os ++ ps) = steps D e os >>= fun x => steps D x ps := by
  intro os
  induction os with
  | nil => intro e ps; rfl
  | cons o os ih =>
    intro e ps
    simp only [List.cons_append, steps]
    cases step D e o with
    | ok x => simp only [Res.bind_ok]; exact ih x ps
    | err x => rfl
    | ub => rfl

/-! ## C205 -/

variable {D : Desk} {relay client : Host} {now : Int} {draft e : Event} {rand : Option Bytes} {sk : Bytes} {open_ : List (Bytes × List Filter)}
  {id : Bytes} {past : List Relay.Spec.Op} {cb : Nat}

/-- What is fit to be sent and is signed without an error arrives. -/
theorem ready_arrives (hS : Gift.Spec.Sizes D.crypto) (w : Ready draft) (hs : sign D.crypto D.host.b rand sk draft = .ok e)
    (R : Route D.crypto relay client e open_ id past cb) (hasCb : Bool) :
    ∃ got, Arrives D.crypto D.host relay client e open_ id hasCb past cb got ∧ verify D.crypto client.b got = .ok () ∧ got.id = e.id ∧
      got.sig = e.sig ∧ D.crypto.pubOf sk = some got.pubkey ∧ got.createdAt = draft.createdAt ∧ got.kind = draft.kind ∧ got.tags = draft.tags ∧
      got.content = some draft.text := by
  obtain ⟨wf, g1, g2, g3, g4, g5⟩ := signed R.crypto hS w hs R.time
  obtain ⟨fs, f1, f2⟩ := R.isOpen
  obtain ⟨t, n, a1, a2⟩ := Journey.Props.C198_delivered_partial R.crypto R.relayNumbers R.clientNumbers hs wf R.time R.relayAdmits R.clientAdmits open_ f1 f2
    R.idText R.idLength hasCb past R.callback
  obtain ⟨m, b1, b2⟩ := a2 (n + 1) (by omega)
  refine ⟨delivered e, ⟨t, n, a1, fun k hk => ?_⟩, ?_, rfl, rfl, g1, g2, g3, g4, ?_⟩
  · obtain ⟨m, b1, b2⟩ := a2 k hk
    exact ⟨m, b1, fun cs chunk c1 c2 c3 => (b2 cs chunk c1 c2 c3).1⟩
  · have hv := (Event.Props.C19_signed_verifies R.crypto hs).1
    exact (Journey.Props.verify_delivered D.crypto client.b e).2 (by rw [Journey.Props.verify_host client D.host wf R.time]; exact hv)
  · show some e.text = some draft.text
    unfold Event.text
    rw [g5]

/-- **C205** (partial: times below 10^15, subscription ids of up to 64 bytes). Whatever is made with the library's calls, in whatever order,
and then signed without an error, can be published and arrives at every subscriber whose filters match, in exactly one callback: with the
author's key, the time, the kind, all tags and the content it was made with, and its signature verifies there. -/
theorem C205_arrives_partial (hS : Gift.Spec.Sizes D.crypto) (hB : Gift.Spec.Standard D.b64) {s : Start} {os : List Op} (hp : s.Proper)
    (ho : ∀ o ∈ os, o.Proper) (hm : made D now s os = .ok draft) (hs : sign D.crypto D.host.b rand sk draft = .ok e)
    (R : Route D.crypto relay client e open_ id past cb) (hasCb : Bool) :
    ∃ got, Arrives D.crypto D.host relay client e open_ id hasCb past cb got ∧ verify D.crypto client.b got = .ok () ∧ got.id = e.id ∧
      got.sig = e.sig ∧ D.crypto.pubOf sk = some got.pubkey ∧ got.createdAt = draft.createdAt ∧ got.kind = draft.kind ∧ got.tags = draft.tags ∧
      got.content = some draft.text := by
  obtain ⟨x, h1, h2⟩ := Res.bind_eq_ok.1 hm
  exact ready_arrives hS (steps_ready (begin_ready hB hp h1) ho h2) hs R hasCb

/-- **C205, reactions**: what `nostr_reaction_create` made is read by the subscriber with `nostr_reaction_parse`: content (`+` if none was
given), id, author and kind of what is reacted to. -/
theorem C205_reaction_partial (hS : Gift.Spec.Sizes D.crypto) (hB : Gift.Spec.Standard D.b64) {content hint : Option Bytes} {target author : Bytes} {kind : Nat}
    (hp : (Start.reaction content target author hint kind).Proper) (hm : made D now (.reaction content target author hint kind) [] = .ok draft)
    (hs : sign D.crypto D.host.b rand sk draft = .ok e) (R : Route D.crypto relay client e open_ id past cb) (hasCb : Bool) :
    ∃ got, Arrives D.crypto D.host relay client e open_ id hasCb past cb got ∧ verify D.crypto client.b got = .ok () ∧ D.crypto.pubOf sk = some got.pubkey ∧
      ∀ n m c, 65 ≤ n → 65 ≤ m → (content.getD (c!"+")).length < c → Nip25.parse got c n m = .ok (content.getD (c!"+"), target, author, kind) := by
  obtain ⟨got, a, v, -, -, k, -, q1, q2, q3⟩ := C205_arrives_partial hS hB hp (by intro o ho; cases ho) hm hs R hasCb
  refine ⟨got, a, v, k, fun n m c hn hm' hc => ?_⟩
  obtain ⟨x, h1, h2⟩ := Res.bind_eq_ok.1 hm
  cases h2
  have := (Nip25.Props.C54_roundtrip _ _ _ _ _ _ _ draft (by have := hp.2.2.2.2; omega) h1).2.2 n m c hn hm' hc
  rw [← this]
  unfold Nip25.parse
  rw [q1, q2, q3]
  unfold Nip18.copyStr Event.text
  rfl

/-- **C205, reposts**: what `nostr_repost_create` made is read by the subscriber with `nostr_repost_parse`: id, author, relay and kind of what
was reposted. -/
theorem C205_repost_partial (hS : Gift.Spec.Sizes D.crypto) (hB : Gift.Spec.Standard D.b64) {target author hint : Bytes} {kind : Nat} {d json : Option Bytes}
    (hp : (Start.repost target author hint kind d json).Proper) (hm : made D now (.repost target author hint kind d json) [] = .ok draft)
    (hs : sign D.crypto D.host.b rand sk draft = .ok e) (R : Route D.crypto relay client e open_ id past cb) (hasCb : Bool) :
    ∃ got, Arrives D.crypto D.host relay client e open_ id hasCb past cb got ∧ verify D.crypto client.b got = .ok () ∧ D.crypto.pubOf sk = some got.pubkey ∧
      got.content = some (json.getD []) ∧
      ∀ n m r, 65 ≤ n → 65 ≤ m → hint.length < r → Nip18.repostParse got n m r = .ok (target, author, hint, kind) := by
  obtain ⟨got, a, v, -, -, k, -, q1, q2, q3⟩ := C205_arrives_partial hS hB hp (by intro o ho; cases ho) hm hs R hasCb
  obtain ⟨x, h1, h2⟩ := Res.bind_eq_ok.1 hm
  cases h2
  obtain ⟨-, -, t1, -, t2, -⟩ := Nip18.Props.C53_roundtrip _ _ _ _ _ _ _ _ draft (by have := hp.2.2.2.1; omega) h1
  refine ⟨got, a, v, k, ?_, fun n m r hn hm' hr => ?_⟩
  · rw [q3]; unfold Event.text; rw [t1]; rfl
  · rw [← t2 n m r hn hm' hr]
    unfold Nip18.repostParse
    rw [q1, q2]

/-- **C205, threads**: the subscriber of an answer finds with `nostr_event_get_root_id` and `nostr_event_get_reply_id` what
`nostr_event_add_reply_tags` was given. -/
theorem C205_thread_partial (hS : Gift.Spec.Sizes D.crypto) (hB : Gift.Spec.Standard D.b64) {text : Bytes} {root reply : Option Nip10.Ref} (ht : CStr text)
    (hp : (Op.reply root reply).Proper) (hm : made D now .blank [.kind 1, .content text, .reply root reply] = .ok draft)
    (hs : sign D.crypto D.host.b rand sk draft = .ok e) (R : Route D.crypto relay client e open_ id past cb) (hasCb : Bool) {n r : Nat}
    (hf : ∀ x, x ∈ root ∨ x ∈ reply → Nip10.Spec.Fits x.id (x.relay.getD []) n r) :
    ∃ got, Arrives D.crypto D.host relay client e open_ id hasCb past cb got ∧ verify D.crypto client.b got = .ok () ∧ D.crypto.pubOf sk = some got.pubkey ∧
      got.content = some text ∧ (∀ x ∈ root, Nip10.getRootId got n r = .ok (x.id, x.relay.getD [])) ∧
      (∀ x ∈ reply, Nip10.getReplyId got n r = .ok (x.id, x.relay.getD [])) := by
  obtain ⟨got, a, v, -, -, k, -, -, q2, q3⟩ := C205_arrives_partial hS hB (s := .blank) trivial (by
    intro o ho
    simp only [List.mem_cons, List.not_mem_nil, or_false] at ho
    rcases ho with rfl | rfl | rfl
    · show 1 < 65536; omega
    · exact ht
    · exact hp) hm hs R hasCb
  obtain ⟨x, h1, h2⟩ := Res.bind_eq_ok.1 hm
  cases h1
  simp only [steps, step, Res.bind_ok] at h2
  obtain ⟨y, h3, h4⟩ := Res.bind_eq_ok.1 h2
  cases h4
  generalize hr : Nip10.addReplyTags D.host.cfg _ root reply = z at h3
  obtain ⟨z, err⟩ := z
  cases err with
  | some err => cases h3
  | none =>
    cases h3
    have key := Nip10.Props.C52_roundtrip _ _ _ _ _ n r hr (by intro t ht; cases ht) hf
    have hroot : ∀ m l, Nip10.findByMarker got m l n r = Nip10.findByMarker draft m l n r := by
      intro m l; unfold Nip10.findByMarker; rw [q2]
    refine ⟨got, a, v, k, ?_, ?_, ?_⟩
    · rw [q3]
      have := reply_content hr
      unfold Event.text
      rw [this]
      rfl
    · intro x hx; rw [← key.1 x hx]; exact hroot _ _
    · intro x hx; rw [← key.2.1 x hx]; exact hroot _ _

/-- **C205, relay lists**: the subscriber reads with `nostr_relay_list_from_event` the entries of the list that was published. -/
theorem C205_relays_partial (hS : Gift.Spec.Sizes D.crypto) (hB : Gift.Spec.Standard D.b64) {l : Nip65.Lst} (hl : Nip65.Spec.Reach l)
    (hp : (Start.relays l).Proper) (hm : made D now (.relays l) [] = .ok draft)
    (hs : sign D.crypto D.host.b rand sk draft = .ok e) (R : Route D.crypto relay client e open_ id past cb) (hasCb : Bool) :
    ∃ got l', Arrives D.crypto D.host relay client e open_ id hasCb past cb got ∧ verify D.crypto client.b got = .ok () ∧ D.crypto.pubOf sk = some got.pubkey ∧
      Nip65.fromEvent (fun _ => (true, true)) got = .ok l' ∧ l'.entries = l.entries := by
  obtain ⟨got, a, v, -, -, k, -, q1, q2, q3⟩ := C205_arrives_partial hS hB hp (by intro o ho; cases ho) hm hs R hasCb
  obtain ⟨x, h1, h2⟩ := Res.bind_eq_ok.1 hm
  cases h2
  obtain ⟨l', r1, r2⟩ := Nip65.Props.C50_roundtrip hl h1
  refine ⟨got, l', a, v, k, ?_, r2⟩
  rw [← r1]
  unfold Nip65.fromEvent
  rw [q1, q2]

/-- **C205, lists**: on another device of its owner with the same configuration, `nostr_list_from_event` reads the list that was published, with
its private items; the bounds are those of C47. -/
theorem C205_list_partial (hS : Gift.Spec.Sizes D.crypto) (hB : Gift.Spec.Standard D.b64) {keys : Nip51.Keys} {nonce : Bytes} {l : Nip51.Lst}
    (hN : Nip44.Spec.NcOK D.nc keys.sk keys.pk keys.sk keys.pk) (hcfg : Nip44.Spec.CfgOK D.host.cfg) (hn : nonce.length = 32) (hl : Nip51.Spec.Reach l)
    (hlen : ∀ t, Nip51.privateText l.items = .ok t → t.length ≤ 61440) (hfit : ∀ it ∈ l.items, it.priv = true → Nip51.Spec.Fits it)
    (hp : (Start.list (some nonce) (some keys) l).Proper) (hm : made D now (.list (some nonce) (some keys) l) [] = .ok draft)
    (hs : sign D.crypto D.host.b rand sk draft = .ok e) (R : Route D.crypto relay client e open_ id past cb) (hasCb : Bool) (hsame : client.cfg = D.host.cfg) :
    ∃ got l', Arrives D.crypto D.host relay client e open_ id hasCb past cb got ∧ verify D.crypto client.b got = .ok () ∧ D.crypto.pubOf sk = some got.pubkey ∧
      Nip51.fromEvent D.nc D.b64 client.cfg (some keys) got = .ok l' ∧ l'.items = Nip51.Spec.back l.items ∧ l'.kind = l.kind ∧
      (30000 ≤ l.kind ∧ l.kind < 40000 → l'.d = some (l.d.getD []) ∧ l'.title = l.title ∧ l'.descr = l.descr ∧ l'.image = l.image) := by
  obtain ⟨got, a, v, -, -, k, -, q1, q2, q3⟩ := C205_arrives_partial hS hB hp (by intro o ho; cases ho) hm hs R hasCb
  obtain ⟨x, h1, h2⟩ := Res.bind_eq_ok.1 hm
  cases h2
  have henc : ∀ x, x ≠ [] → D.b64.enc x ≠ [] := by
    intro x hx h0
    have := hB.len x
    rw [h0] at this
    have := List.length_pos_iff.2 hx
    simp only [List.length_nil] at *
    omega
  obtain ⟨l', r1, r2⟩ := Nip51.Props.C47_roundtrip_partial hN hB.ok hcfg henc hn hl (fun it hi _ => hp.2.2 it hi) hlen hfit h1
  refine ⟨got, l', a, v, k, ?_, r2⟩
  rw [← r1, hsame]
  have ht : got.text = draft.text := by unfold Event.text; rw [q3]; rfl
  unfold Nip51.fromEvent
  rw [q1, q2, ht]

/-- **C205, delegated events**: an event with a delegation to its author whose conditions admit it is accepted at the subscriber by
`nostr_event_verify_delegation`. -/
theorem C205_delegated_partial (hS : Gift.Spec.Sizes D.crypto) (hB : Gift.Spec.Standard D.b64) {text pk : Bytes} {kind : Nat} {d : Nip26.Delegation} (ht : CStr text)
    (hk : kind < 65536) (hp : (Op.delegation d).Proper) (h1 : d.delegator.length = 32) (h2 : d.token.length = 64) (h3 : d.conditions.length ≤ 4096)
    (h4 : Nip26.parseConditions d.conditions = some d.parsed) (hpk : D.crypto.pubOf sk = some pk) (h5 : Nip26.verify D.crypto d pk = .ok ())
    (h6 : Nip26.check d kind now = .ok ()) (hm : made D now .blank [.kind kind, .content text, .delegation d] = .ok draft)
    (hs : sign D.crypto D.host.b rand sk draft = .ok e) (R : Route D.crypto relay client e open_ id past cb) (hasCb : Bool) :
    ∃ got, Arrives D.crypto D.host relay client e open_ id hasCb past cb got ∧ verify D.crypto client.b got = .ok () ∧ got.pubkey = pk ∧
      got.content = some text ∧ Nip26.getDelegation got = .ok d ∧ Nip26.verifyDelegation D.crypto got = .ok () := by
  obtain ⟨got, a, v, -, -, k, q0, q1, q2, q3⟩ := C205_arrives_partial hS hB (s := .blank) trivial (by
    intro o ho
    simp only [List.mem_cons, List.not_mem_nil, or_false] at ho
    rcases ho with rfl | rfl | rfl
    · exact hk
    · exact ht
    · exact hp) hm hs R hasCb
  obtain ⟨x, g1, g2⟩ := Res.bind_eq_ok.1 hm
  cases g1
  simp only [steps, step, Res.bind_ok] at g2
  obtain ⟨y, g3, g4⟩ := Res.bind_eq_ok.1 g2
  cases g4
  have hd := Nip26.Props.C56_event_roundtrip _ _ _ d h1 h2 h3 h4 (by intro t ht; cases ht) g3
  have hx := Nip10.Props.addTag_ok g3
  have hgot : Nip26.getDelegation got = .ok d := by rw [← hd]; unfold Nip26.getDelegation; rw [q2]
  have hkey : got.pubkey = pk := by rw [hpk] at k; exact (Option.some.inj k).symm
  refine ⟨got, a, v, hkey, ?_, hgot, ?_⟩
  · rw [q3, hx]; rfl
  · unfold Nip26.verifyDelegation
    rw [hgot, Res.bind_ok, hkey, h5, Res.bind_ok, q0, q1, hx]
    exact h6

/-- **C205, proof of work**: an event that carries its author's key when it is mined keeps its work when it is signed, and the subscriber finds
it with `nostr_nip13_verify_pow`. -/
theorem C205_work_partial (hS : Gift.Spec.Sizes D.crypto) (hB : Gift.Spec.Standard D.b64) {s : Start} {os : List Op} (hp : s.Proper) (ho : ∀ o ∈ os, o.Proper)
    {pk : Bytes} (hpk : D.crypto.pubOf sk = some pk) {target : Int} (ht : target < 2 ^ 31) {maxIter fuel : Nat} {clock : Nat → Int}
    (hm : made D now s (os ++ [.author pk, .mine target maxIter fuel clock]) = .ok draft)
    (hs : sign D.crypto D.host.b rand sk draft = .ok e) (R : Route D.crypto relay client e open_ id past cb) (hasCb : Bool) :
    ∃ got, Arrives D.crypto D.host relay client e open_ id hasCb past cb got ∧ verify D.crypto client.b got = .ok () ∧ got.id = draft.id ∧
      Nip13.verifyPow got target = .ok () := by
  obtain ⟨got, a, v, i, -, k, q0, q1, q2, q3⟩ := C205_arrives_partial hS hB hp (by
    intro o h
    rcases List.mem_append.1 h with h | h
    · exact ho o h
    · simp only [List.mem_cons, List.not_mem_nil, or_false] at h
      rcases h with rfl | rfl <;> trivial) hm hs R hasCb
  obtain ⟨x, g1, g2⟩ := Res.bind_eq_ok.1 hm
  rw [steps_append] at g2
  obtain ⟨y, g3, g4⟩ := Res.bind_eq_ok.1 g2
  simp only [steps, step, Res.bind_ok] at g4
  obtain ⟨z, g5, g6⟩ := Res.bind_eq_ok.1 g4
  cases g6
  generalize hr : Nip13.mine ⟨D.host.cfg, D.crypto, D.host.b, clock⟩ target maxIter fuel { y with pubkey := pk } = r at g5
  cases r with
  | none => cases g5
  | some r =>
    cases g5
    obtain ⟨n, M, -, -, hv⟩ := Nip13.Props.C12_mining_sound _ ht hr
    obtain ⟨pk', t, r', sig, s1, s2, s3, s4, s5⟩ := Gift.sign_ok hs
    have hpk' : pk' = pk := by rw [hpk] at s1; exact (Option.some.inj s1).symm
    obtain ⟨t', m1, m2⟩ := M.id
    have hdp : draft.pubkey = pk := M.pubkey
    have hself : { draft with pubkey := pk' } = draft := by rw [hpk', ← hdp]
    rw [hself, m1] at s2
    have hid : got.id = draft.id := by
      rw [i, s5, m2]
      cases s2
      rfl
    refine ⟨got, a, v, hid, ?_⟩
    rw [← hv]
    unfold Nip13.verifyPow
    rw [hid, q2]

theorem mined_ready {C : Crypto} {b : Build} {e0 e1 : Event} {target : Int} {nonce : Nat} (w : Ready e0) (h : Nip13.Spec.Mined C b e0 target nonce e1) :
    Ready e1 := by
  have hn : ∀ rest : List Bytes, (∀ v ∈ rest, CStr v) → ∀ v ∈ (c!"nonce" :: Num.decNat nonce :: Num.decInt target :: rest), CStr v := by
    intro rest hr v hv
    simp only [List.mem_cons] at hv
    rcases hv with rfl | rfl | rfl | hv
    · decide
    · exact cstr_decNat nonce
    · exact cstr_decInt target
    · exact hr v hv
  refine ⟨h.kind ▸ w.kind, ?_, ?_⟩
  · intro t ht
    rcases h.tags with ⟨-, e2⟩ | ⟨pre, v, rest, post, e1', -, e2⟩
    · rw [e2] at ht
      rcases List.mem_append.1 ht with ht | ht
      · exact w.tags t ht
      · rw [List.mem_singleton.1 ht]
        exact ⟨by simp, hn [] (by simp)⟩
    · rw [e2] at ht
      have hw := w.tags
      rw [e1'] at hw
      rcases List.mem_append.1 ht with ht | ht
      · exact hw t (List.mem_append_left _ ht)
      · rcases List.mem_cons.1 ht with rfl | ht
        · refine ⟨by simp, hn _ ?_⟩
          intro x hx
          exact (hw _ (List.mem_append_right _ (List.mem_cons_self ..))).2 x (by simp [List.mem_of_mem_drop hx])
        · exact hw t (List.mem_append_right _ (List.mem_cons_of_mem _ ht))
  · show CStr (Event.text e1)
    have := w.content
    unfold Event.text at this ⊢
    rw [h.content]
    exact this

/-- **C205, proof of work in parallel**: the same for `nostr_nip13_mine_event_threaded`, for every number of threads, every schedule of them,
every clock, and wherever memory runs out: when it reports success, the event keeps its work when it is signed, and the subscriber finds it. -/
theorem C205_parallel_partial (hS : Gift.Spec.Sizes D.crypto) (hB : Gift.Spec.Standard D.b64) {s : Start} {os : List Op} (hp : s.Proper) (ho : ∀ o ∈ os, o.Proper)
    {pk : Bytes} (hpk : D.crypto.pubOf sk = some pk) {target : Int} (h1 : 1 ≤ target) (ht : target < 2 ^ 31) {n maxIter : Nat} {e1 : Event} {st : Nip13.St}
    (hm : made D now s (os ++ [.author pk]) = .ok draft) (h0 : Nip13.ensureNonce D.host.cfg draft target = .ok e1)
    (hr : Nip13.Steps D.host.cfg D.crypto D.host.b target n maxIter (Nip13.start e1) st) (hf : Nip13.Success n st)
    (hs : sign D.crypto D.host.b rand sk st.event = .ok e) (R : Route D.crypto relay client e open_ id past cb) (hasCb : Bool) :
    ∃ got, Arrives D.crypto D.host relay client e open_ id hasCb past cb got ∧ verify D.crypto client.b got = .ok () ∧ got.id = st.event.id ∧
      got.kind = draft.kind ∧ got.content = some draft.text ∧ (∀ t ∈ draft.tags, t.head? ≠ some (c!"nonce") → t ∈ got.tags) ∧
      Nip13.verifyPow got target = .ok () := by
  obtain ⟨x, g1, g2⟩ := Res.bind_eq_ok.1 hm
  have w := steps_ready (begin_ready hB hp g1) (by
    intro o h
    rcases List.mem_append.1 h with h | h
    · exact ho o h
    · rw [List.mem_singleton.1 h]; trivial) g2
  rw [steps_append] at g2
  obtain ⟨y, g3, g4⟩ := Res.bind_eq_ok.1 g2
  simp only [steps, step, Res.bind_ok] at g4
  cases g4
  obtain ⟨i, -, -, -, M, hv⟩ := Nip13.Props.C13_one_winner h1 h0 hr hf
  have hv := hv ht
  obtain ⟨got, a, v, gi, -, k, q0, q1, q2, q3⟩ := ready_arrives hS (mined_ready w M) hs R hasCb
  obtain ⟨pk', t, r', sig, s1, s2, s3, s4, s5⟩ := Gift.sign_ok hs
  have hpk' : pk' = pk := by rw [hpk] at s1; exact (Option.some.inj s1).symm
  obtain ⟨t', m1, m2⟩ := M.id
  have hdp : st.event.pubkey = pk := M.pubkey
  have hself : { st.event with pubkey := pk' } = st.event := by rw [hpk', ← hdp]
  rw [hself, m1] at s2
  have hid : got.id = st.event.id := by
    rw [gi, s5, m2]
    cases s2
    rfl
  refine ⟨got, a, v, hid, q1.trans M.kind, ?_, ?_, ?_⟩
  · rw [q3]
    unfold Event.text
    rw [M.content]
  · intro u hu hne
    rw [q2]
    rcases M.tags with ⟨-, e2⟩ | ⟨pre, v', rest, post, e1', -, e2⟩
    · rw [e2]; exact List.mem_append_left _ hu
    · rw [e1'] at hu
      rw [e2]
      rcases List.mem_append.1 hu with hu | hu
      · exact List.mem_append_left _ hu
      · rcases List.mem_cons.1 hu with rfl | hu
        · exact absurd rfl hne
        · exact List.mem_append_right _ (List.mem_cons_of_mem _ hu)
  · rw [← hv]
    unfold Nip13.verifyPow
    rw [hid, q2]

/-- A hash that is zero for texts that begin as those of events without a key do. -/
def zeroHash : Crypto := { Gift.Props.sized with sha256 := fun t => if t.take 10 = c!"[0,\"000000" then List.replicate 32 0 else List.replicate 32 255 }

/-- A desk with that hash. -/
def early : Desk := ⟨Mail.Props.std, zeroHash, Nip47.Props.sumNc, Base64.codec⟩

/-- **C205 fails for work done too early**: the key that `nostr_event_create` leaves in the event is not the author's. An event that is mined as
it is and then signed gets another id, and the work is lost: `nostr_nip13_verify_pow` accepts it before and refuses it after signing. -/
theorem C205_work_refuted : ∃ (D : Desk) (draft e : Event), Event.Props.CryptoOK D.crypto ∧ Gift.Spec.Sizes D.crypto ∧
    made D 1700000000 .blank [.kind 1, .content (c!"hi"), .mine 8 0 1 fun _ => 1700000000] = .ok draft ∧ Nip13.verifyPow draft 8 = .ok () ∧
    sign D.crypto D.host.b (some []) (List.replicate 32 7) draft = .ok e ∧ Nip13.verifyPow e 8 = .err .invalidEvent := by
  have key : (match made early 1700000000 .blank [.kind 1, .content (c!"hi"), .mine 8 0 1 fun _ => 1700000000] with
    | .ok draft => match sign early.crypto early.host.b (some []) (List.replicate 32 7) draft with
      | .ok e => decide (Nip13.verifyPow draft 8 = .ok ()) && decide (Nip13.verifyPow e 8 = .err .invalidEvent)
      | _ => false
    | _ => false) = true := by decide +kernel
  generalize h1 : made early 1700000000 .blank [.kind 1, .content (c!"hi"), .mine 8 0 1 fun _ => 1700000000] = r at key
  cases r with
  | err x => cases key
  | ub => cases key
  | ok draft =>
    simp only at key
    generalize h2 : sign early.crypto early.host.b (some []) (List.replicate 32 7) draft = r at key
    cases r with
    | err x => cases key
    | ub => cases key
    | ok e =>
      simp only [Bool.and_eq_true, decide_eq_true_eq] at key
      refine ⟨early, draft, e, ⟨?_, Gift.Props.sized_ok.pub, Gift.Props.sized_ok.sig⟩, ⟨Gift.Props.sized_sizes.pub, Gift.Props.sized_sizes.sig⟩, h1, key.1, h2, key.2⟩
      intro t
      unfold early zeroHash
      simp only
      split <;> rfl

/-! ## Examples -/

/-- The author's desk of the examples: default limits, toy cryptography. -/
def desk : Desk := ⟨Mail.Props.std, Gift.Props.sized, Nip47.Props.sumNc, Base64.codec⟩

abbrev key (x : UInt8) : Bytes := List.replicate 32 x

abbrev hex (x : UInt8) : Bytes := List.replicate 64 x

/-- What is made with these calls and signed by `7…7`, if both succeed. -/
def posted (s : Start) (os : List Op) : Option Event :=
  match made desk 1700000000 s os with
  | .ok x => match sign desk.crypto desk.host.b (some []) (key 7) x with
    | .ok e => some e
    | _ => none
  | _ => none

/-- The list after a call. -/
def afterwards {α : Type} (r : Res (α × Option Err)) (d : α) : α :=
  match r with
  | .ok x => x.1
  | _ => d

/-- Events of all sorts are made and signed. -/
example : ([posted (.reaction (some (c!"-")) (hex 0x61) (hex 0x62) (some (c!"wss://r")) 1) [],
    posted (.repost (hex 0x61) (hex 0x62) (c!"wss://r") 30023 (some (c!"x")) none) [],
    posted (.zap 21000 (key 9) (some (c!"lnurl1")) (some (c!"thanks")) [c!"wss://r"]) [],
    posted .blank [.kind 1, .content (c!"hi"), .reply (some ⟨hex 0x61, some (c!"wss://r"), none⟩) (some ⟨hex 0x62, none, some (hex 0x63)⟩)],
    posted .blank [.kind 1, .content (c!"hi"), .mention (hex 0x61) none, .quotes fun _ => key 0, .nonce 5 0, .tag [c!"t", c!"x"]],
    posted .blank [.kind 1, .content (c!"hi"), .author (key 7), .mine 1 1 1 fun _ => 1700000001],
    posted .blank [.kind 1, .content (c!"hi"), .delegation ⟨key 8, c!"kind=1", List.replicate 64 7, ⟨[1], none, none⟩⟩],
    posted (.relays (afterwards (Nip65.add true true Nip65.create ⟨c!"wss://r", true, false⟩) Nip65.create)) [],
    posted (.list (some (key 5)) (some ⟨key 7, key 7⟩) (afterwards
      (Nip51.add true true (Nip51.create 10000) (.pubkey (hex 0x61) none none) true) (Nip51.create 0))) []].all Option.isSome) = true := by
  decide +kernel

/-- A way for one of them. -/
example : ∃ e, posted .blank [.kind 1, .content (c!"hi"), .mention (hex 0x61) none] = some e ∧
    Route desk.crypto Mail.Props.std Mail.Props.std e [(c!"a", [{ Filter.empty with kinds := [1] }])] (c!"a") [.subscribe (c!"a") (some 3)] 3 := by
  refine ⟨_, rfl, Gift.Props.sized_ok, Msg.Props.toy_renum, Msg.Props.toy_renum, by decide +kernel, ?_, ?_, ⟨_, List.mem_singleton.2 rfl, by decide +kernel⟩, by decide,
    by decide, by decide⟩
  all_goals
    intro c hc
    cases hc
    decide +kernel

/-- A run of parallel mining in which one worker wins at once. -/
theorem one_worker {cfg : Option Config.Config} {C : Crypto} {b : Build} {target : Int} {t : Int} {e1 e2 e3 : Event}
    (h2 : Nip13.addNonce cfg e1 0 target = .ok e2) (h3 : computeId C b { e2 with createdAt := t } = .ok e3) (hd : (Nip13.difficulty e3.id : Int) ≥ target) :
    ∃ st, Nip13.Steps cfg C b target 1 0 (Nip13.start e1) st ∧ Nip13.Success 1 st ∧ st.event = e3 := by
  have g1 := Nip13.Steps.tail (.refl (Nip13.start e1))
    (Nip13.Step.create (cfg := cfg) (C := C) (b := b) (target := target) (n := 1) (maxIter := 0) _ Nat.zero_lt_one rfl)
  have g2 := g1.tail (.goOn _ 0 Nat.zero_lt_one rfl rfl (Or.inl rfl))
  have g3 := g2.tail (.acquire _ 0 Nat.zero_lt_one rfl rfl)
  have g4 := g3.tail (.recheck _ 0 Nat.zero_lt_one rfl)
  have g5 := g4.tail (.setNonce _ 0 e2 Nat.zero_lt_one rfl h2)
  have g6 := g5.tail (.setTime _ 0 t Nat.zero_lt_one rfl)
  have g7 := g6.tail (.setId _ 0 e3 Nat.zero_lt_one rfl h3)
  have g8 := g7.tail (.win _ 0 Nat.zero_lt_one rfl hd)
  have g9 := g8.tail (.unlockLeave _ 0 Nat.zero_lt_one rfl)
  refine ⟨_, g9, ⟨rfl, rfl, ?_, 0, by decide, rfl⟩, rfl⟩
  intro i hi
  have : i = 0 := by omega
  subst this
  rfl

/-- An event that is mined in parallel and signed. -/
example : ∃ draft e1 st e, made desk 1700000000 .blank ([.kind 1, .content (c!"hi")] ++ [.author (key 7)]) = .ok draft ∧
    Nip13.ensureNonce desk.host.cfg draft 1 = .ok e1 ∧ Nip13.Steps desk.host.cfg desk.crypto desk.host.b 1 1 0 (Nip13.start e1) st ∧
    Nip13.Success 1 st ∧ sign desk.crypto desk.host.b (some []) (key 7) st.event = .ok e := by
  have h : (match made desk 1700000000 .blank ([.kind 1, .content (c!"hi")] ++ [.author (key 7)]) with
    | .ok draft => match Nip13.ensureNonce desk.host.cfg draft 1 with
      | .ok e1 => match Nip13.addNonce desk.host.cfg e1 0 1 with
        | .ok e2 => match computeId desk.crypto desk.host.b { e2 with createdAt := 1700000001 } with
          | .ok e3 => decide ((Nip13.difficulty e3.id : Int) ≥ 1) && (sign desk.crypto desk.host.b (some []) (key 7) e3).isOk
          | _ => false
        | _ => false
      | _ => false
    | _ => false) = true := by decide +kernel
  cases a : made desk 1700000000 .blank ([.kind 1, .content (c!"hi")] ++ [.author (key 7)]) with
  | err x => rw [a] at h; cases h
  | ub => rw [a] at h; cases h
  | ok draft =>
    rw [a] at h; simp only at h
    cases b : Nip13.ensureNonce desk.host.cfg draft 1 with
    | err x => rw [b] at h; cases h
    | ub => rw [b] at h; cases h
    | ok e1 =>
      rw [b] at h; simp only at h
      cases c : Nip13.addNonce desk.host.cfg e1 0 1 with
      | err x => rw [c] at h; cases h
      | ub => rw [c] at h; cases h
      | ok e2 =>
        rw [c] at h; simp only at h
        cases d : computeId desk.crypto desk.host.b { e2 with createdAt := 1700000001 } with
        | err x => rw [d] at h; cases h
        | ub => rw [d] at h; cases h
        | ok e3 =>
          rw [d] at h
          simp only [Bool.and_eq_true, decide_eq_true_eq] at h
          obtain ⟨st, s1, s2, s3⟩ := one_worker c d h.1
          cases f : sign desk.crypto desk.host.b (some []) (key 7) e3 with
          | err x => rw [f] at h; cases h.2
          | ub => rw [f] at h; cases h.2
          | ok e => exact ⟨draft, e1, st, e, rfl, b, s1, s2, s3 ▸ f⟩

end Nostr.Journey.Post.Props
