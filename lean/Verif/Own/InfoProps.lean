import Verif.Own.Basic
import Verif.Own.Info
import Verif.Filter.HeapProps

/-! # Property theorems: memory of the wallet information event (C133) -/

namespace Nostr.Own.Info.Props
open Nostr Nostr.Heap Nostr.Own Nostr.Own.Info Nostr.Filter.Own

theorem words_length (s : Bytes) : (Nip47.words s).length ≤ s.count 0x20 + 1 := by
  unfold Nip47.words; simp; omega

/-- A word array is new and right, or nothing stays allocated. -/
theorem wordsOut_ok {A : Alloc} (hA : Fresh A) {h0 : Mem} {own : List Nat} {h : Heap} (o : Owned h0 h.mem own)
    (out : Out) (s : Bytes) :
    ∃ st x h', wordsOut A out s h = some ((st, x), h') ∧
      ((st = some .memory ∧ Refused A h0 ∧ h'.mem = h.mem) ∨
       (st = none ∧ ∃ new, StrArr h'.mem x.1 x.2 (Nip47.words s) new ∧ Owned h0 h'.mem (new ++ own) ∧
          ∀ a ∈ own, h'.mem a = h.mem a)) := by
  unfold wordsOut
  simp only [M.bind]
  rcases alloc_cases hA (.str s) h with ⟨f1, e1⟩ | ⟨t, e1, n1⟩
  · simp only [e1, Option.bind_some, M.pure]
    exact ⟨_, _, _, rfl, .inl ⟨rfl, (Refused.here f1).back o.same, rfl⟩⟩
  · simp only [e1, Option.bind_some, M.bind]
    have o1 := o.new n1 (.str s)
    have freeT : ∀ (m : Mem) (k : Nat), m t ≠ none → free (some t) ⟨m, k⟩ = some ((), ⟨upd m t none, k⟩) := by
      intro m k hm
      unfold free
      cases hx : m t with
      | none => exact absurd hx hm
      | some v => simp [hx]
    have undo : upd (upd h.mem t (some (.str s))) t none = h.mem := by
      funext x
      by_cases hx : x = t
      · subst hx; simp [upd, n1]
      · simp [upd, hx]
    rcases alloc_cases hA (.ptrs (List.replicate (s.count 0x20 + 1) none)) ⟨upd h.mem t (some (.str s)), h.tick + 1⟩ with
      ⟨f2, e2⟩ | ⟨d, e2, n2⟩
    · simp only [e2, Option.bind_some, M.bind]
      rw [freeT _ _ (by simp)]
      simp only [Option.bind_some, M.pure]
      exact ⟨_, _, _, rfl, .inl ⟨rfl, (Refused.here f2).back o1.same, undo⟩⟩
    · simp only [e2, Option.bind_some, M.bind]
      obtain ⟨b, h3, e3, h4⟩ := fillLoop_ok hA (Nip47.words s) [] [] (s.count 0x20 + 1) _
        (Filling.start (h := ⟨upd h.mem t (some (.str s)), h.tick + 1⟩) (d := d) (n := s.count 0x20 + 1) (t := h.tick + 1 + 1) n2)
        (words_length s)
      rw [List.length_nil] at e3
      rw [e3]
      simp only [Option.bind_some, M.bind]
      rcases h4 with ⟨rfl, hf, hm⟩ | ⟨rfl, qs, hq⟩
      · obtain ⟨m3, k3⟩ := h3
        simp only at hm
        subst hm
        rw [freeT _ _ (by simp)]
        simp only [Option.bind_some, Bool.false_eq_true, if_false, M.pure]
        exact ⟨_, _, _, rfl, .inl ⟨rfl, hf.back o1.same, undo⟩⟩
      · obtain ⟨m3, k3⟩ := h3
        simp only [List.nil_append] at hq
        have ht : t ∉ d :: qs := fun hm => by
          have := hq.ext.fresh t hm
          simp [upd] at this
        have hkeep : m3 t = some (.str s) := by
          have := hq.ext.same t ht
          simpa [upd] using this
        rw [freeT _ _ (by rw [hkeep]; simp)]
        simp only [Option.bind_some, if_true, M.pure]
        have live : ∀ a ∈ own, a ≠ t ∧ a ∉ d :: qs := fun a ha => by
          have h1 : a ≠ t := by rintro rfl; exact o.live _ ha n1
          refine ⟨h1, fun hm => ?_⟩
          have := hq.ext.fresh a hm
          simp only [upd_other _ _ h1] at this
          exact o.live a ha this
        have hs : StrArr (upd m3 t none) (some d) (Nip47.words s).length (Nip47.words s) (d :: qs) := by
          have := (StrArr.arr hq.arr hq.strs).mono (m' := upd m3 t none) fun a ha => upd_other _ _ (by rintro rfl; exact ht ha)
          rw [hq.strs.length] at this
          exact this
        refine ⟨_, _, _, rfl, .inr ⟨rfl, d :: qs, hs, ?_, fun a ha => ?_⟩⟩
        · have h2 : ∀ a, a ∉ d :: qs → upd m3 t none a = h.mem a := fun a ha => by
            by_cases hx : a = t
            · subst hx; simp [n1]
            · rw [upd_other _ _ hx]
              have := hq.ext.same a ha
              exact this.trans (upd_other _ _ hx)
          have hfr : ∀ a ∈ d :: qs, h.mem a = none := fun a ha => by
            have := hq.ext.fresh a ha
            rwa [show (⟨upd h.mem t (some (.str s)), h.tick + 1⟩ : Heap).mem a = h.mem a from
              upd_other _ _ (by rintro rfl; exact ht ha)] at this
          refine ⟨List.nodup_append.2 ⟨hq.ext.nodup, o.nodup, fun a ha b hb hab => (live b hb).2 (hab ▸ ha)⟩, ?_, ?_, ?_⟩
          · intro a ha
            rcases List.mem_append.1 ha with ha | ha
            · by_cases hx : a ∈ own
              · exact o.fresh a hx
              · rw [← o.same a hx]; exact hfr a ha
            · exact o.fresh a ha
          · intro a ha
            rcases List.mem_append.1 ha with ha | ha
            · exact hs.live a ha
            · exact fun hn => o.live a ha ((h2 a (live a ha).2).symm.trans hn)
          · intro a ha
            simp only [List.mem_append, not_or] at ha
            exact (h2 a ha.1).trans (o.same a ha.2)
        · have := hq.ext.same a (live a ha).2
          exact ((upd_other _ _ (live a ha).1).trans this).trans (upd_other _ _ (live a ha).1)

theorem tagOut_ok {A : Alloc} (hA : Fresh A) {h0 : Mem} {own : List Nat} {h : Heap} (o : Owned h0 h.mem own)
    (tags : List (List Bytes)) (name : Bytes) :
    ∃ st x h', tagOut A tags name h = some ((st, x), h') ∧
      ((st = some .memory ∧ Refused A h0 ∧ h'.mem = h.mem) ∨
       (st = none ∧ ∃ new, StrArr h'.mem x.1 x.2 (Nip47.tagWords name tags) new ∧ Owned h0 h'.mem (new ++ own) ∧
          ∀ a ∈ own, h'.mem a = h.mem a)) := by
  unfold tagOut Nip47.tagWords
  cases RelayProto.tagValue tags name with
  | none => exact ⟨none, (none, 0), h, rfl, .inr ⟨rfl, [], .null, o, fun _ _ => rfl⟩⟩
  | some v => exact wordsOut_ok hA o _ v

/-- **C133**, the part that holds. Reading an information event never touches memory it does not own. If it reports
success the three arrays hold exactly the words of the content and of the two tags, in new blocks, and releasing the
three gives everything back. If it fails, memory ran out, and what stays allocated is: nothing, or the capabilities,
or the capabilities and the notifications. Missing: a caller cannot tell these cases apart, see the refutation. -/
theorem C133_info_partial {A : Alloc} (hA : Fresh A) (t : Bytes) (tags : List (List Bytes)) (o : Out × Out × Out) (h : Heap) :
    ∃ st c n x h', parse A t tags o h = some ((st, c, n, x), h') ∧
      ((st = none ∧ ∃ o1 o2 o3 h1 h2 h3, StrArr h'.mem c.1 c.2 (Nip47.words t) o1 ∧
          StrArr h'.mem n.1 n.2 (Nip47.tagWords c!"notifications" tags) o2 ∧
          StrArr h'.mem x.1 x.2 (Nip47.tagWords c!"encryption" tags) o3 ∧
          Owned h.mem h'.mem (o3 ++ (o2 ++ o1)) ∧
          release x h' = some ((), h1) ∧ release n h1 = some ((), h2) ∧ release c h2 = some ((), h3) ∧ h3.mem = h.mem) ∨
       (st = some .memory ∧ Refused A h.mem ∧
          (h'.mem = h.mem ∨
           (∃ o1, StrArr h'.mem c.1 c.2 (Nip47.words t) o1 ∧ Owned h.mem h'.mem o1) ∨
           ∃ o1 o2, StrArr h'.mem c.1 c.2 (Nip47.words t) o1 ∧ StrArr h'.mem n.1 n.2 (Nip47.tagWords c!"notifications" tags) o2 ∧
             Owned h.mem h'.mem (o2 ++ o1)))) := by
  unfold parse
  simp only [M.bind]
  obtain ⟨st1, c, h1, e1, r1⟩ := wordsOut_ok hA (Owned.nil h.mem) o.1 t
  rw [e1]
  simp only [Option.bind_some]
  rcases r1 with ⟨rfl, f1, m1⟩ | ⟨rfl, o1, s1, w1, -⟩
  · exact ⟨_, _, _, _, _, rfl, .inr ⟨rfl, f1, .inl m1⟩⟩
  · rw [List.append_nil] at w1
    simp only [M.bind]
    obtain ⟨st2, n, h2, e2, r2⟩ := tagOut_ok hA w1 tags c!"notifications"
    rw [e2]
    simp only [Option.bind_some]
    rcases r2 with ⟨rfl, f2, m2⟩ | ⟨rfl, o2, s2, w2, k2⟩
    · exact ⟨_, _, _, _, _, rfl, .inr ⟨rfl, f2, .inr (.inl ⟨o1, by rw [m2]; exact s1, by rw [m2]; exact w1⟩)⟩⟩
    · replace s1 := s1.mono k2
      simp only [M.bind]
      obtain ⟨st3, x, h3, e3, r3⟩ := tagOut_ok hA w2 tags c!"encryption"
      rw [e3]
      simp only [Option.bind_some, M.pure]
      rcases r3 with ⟨rfl, f3, m3⟩ | ⟨rfl, o3, s3, w3, k3⟩
      · exact ⟨_, _, _, _, _, rfl, .inr ⟨rfl, f3, .inr (.inr ⟨o1, o2, by rw [m3]; exact s1, by rw [m3]; exact s2, by rw [m3]; exact w2⟩)⟩⟩
      · replace s1 := s1.mono fun a ha => k3 a (List.mem_append_right _ ha)
        replace s2 := s2.mono fun a ha => k3 a (List.mem_append_left _ ha)
        obtain ⟨g1, f1, m1, v1⟩ := w3.freeStrings s3
        have d3 := (List.nodup_append.1 w3.nodup).2.2
        have t1 := s1.mono (m' := g1.mem) fun a ha => by
          rw [m1]; exact without_other _ fun hb => d3 a hb a (List.mem_append_right _ ha) rfl
        have t2 := s2.mono (m' := g1.mem) fun a ha => by
          rw [m1]; exact without_other _ fun hb => d3 a hb a (List.mem_append_left _ ha) rfl
        obtain ⟨g2, f2, m2, v2⟩ := v1.freeStrings t2
        have d2 := (List.nodup_append.1 v1.nodup).2.2
        have u1 := t1.mono (m' := g2.mem) fun a ha => by
          rw [m2]; exact without_other _ fun hb => d2 a hb a ha rfl
        rw [← List.append_nil o1] at v2
        obtain ⟨g3, f3, m3, v3⟩ := v2.freeStrings u1
        exact ⟨_, _, _, _, _, rfl, .inl ⟨rfl, o1, o2, o3, g1, g2, g3, s1, s2, s3, w3, f1, f2, f3, v3.eq⟩⟩

/-- A caller who sets the variables to NULL and 0 before the call. -/
def fresh3 : Out × Out × Out := ((none, 0), (none, 0), (none, 0))

/-- C133 as stated fails. Two runs on one event, with memory running out at different places, give the caller the
same error and the same values of all six variables. After the one, releasing the capabilities is a double free;
after the other, not releasing them loses them. So no treatment of a failed call is right. -/
theorem C133_ambiguous_refuted : ∃ (t : Bytes) (tags : List (List Bytes)) (A B : Alloc) (r : Option Err × Out × Out × Out)
    (ha hb : Heap), Fresh A ∧ Fresh B ∧
    parse A t tags fresh3 ⟨fun _ => none, 0⟩ = some (r, ha) ∧ parse B t tags fresh3 ⟨fun _ => none, 0⟩ = some (r, hb) ∧
    r.1 = some .memory ∧ release r.2.1 ha = none ∧ ∃ a, hb.mem a ≠ none := by
  have fr : ∀ k, Fresh (Filter.Props.failAt k) := fun k => by
    intro m n a h
    unfold Filter.Props.failAt at h
    split at h
    · simp at h
    · rename_i hn
      simp only [Option.some.injEq] at h
      subst h
      simp only [not_or, ne_eq, Decidable.not_not] at hn
      exact hn.2
  have run : ∀ {k : Nat} {r}, ((parse (Filter.Props.failAt k) c!"pay_invoice get_balance" [[c!"notifications", c!"payment_received"]] fresh3
      ⟨fun _ => none, 0⟩).map fun x => x.1) = some r →
      ∃ h, parse (Filter.Props.failAt k) c!"pay_invoice get_balance" [[c!"notifications", c!"payment_received"]] fresh3 ⟨fun _ => none, 0⟩ = some (r, h) := by
    intro k r hr
    cases hp : parse (Filter.Props.failAt k) c!"pay_invoice get_balance" [[c!"notifications", c!"payment_received"]] fresh3 ⟨fun _ => none, 0⟩ with
    | none => rw [hp] at hr; simp at hr
    | some x =>
      rw [hp] at hr
      simp only [Option.map_some, Option.some.injEq] at hr
      exact ⟨x.2, by rw [← hr]⟩
  obtain ⟨ha, e1⟩ := run (k := 3) (r := (some .memory, (some 101, 2), (none, 0), (none, 0))) (by decide +kernel)
  obtain ⟨hb, e2⟩ := run (k := 4) (r := (some .memory, (some 101, 2), (none, 0), (none, 0))) (by decide +kernel)
  refine ⟨_, _, _, _, _, ha, hb, fr 3, fr 4, e1, e2, rfl, ?_, 101, ?_⟩
  · have : ((parse (Filter.Props.failAt 3) c!"pay_invoice get_balance" [[c!"notifications", c!"payment_received"]] fresh3
      ⟨fun _ => none, 0⟩).map fun x => (release (some 101, 2) x.2).isNone) = some true := by decide +kernel
    rw [e1] at this
    simpa using this
  · have : ((parse (Filter.Props.failAt 4) c!"pay_invoice get_balance" [[c!"notifications", c!"payment_received"]] fresh3
      ⟨fun _ => none, 0⟩).map fun x => (x.2.mem 101).isSome) = some true := by decide +kernel
    rw [e2] at this
    intro hn
    simp [hn] at this

/-- A run that succeeds: ten allocations, three arrays. -/
example : ((parse (Filter.Props.failAt 99) c!"pay_invoice get_balance" [[c!"notifications", c!"payment_received"], [c!"encryption", c!"nip44_v2 nip04"]] fresh3
      ⟨fun _ => none, 0⟩).map fun x => (x.1.1, x.1.2.1.2, x.1.2.2.1.2, x.1.2.2.2.2, x.2.tick)) = some (none, 2, 1, 2, 11) := by
  decide +kernel

end Nostr.Own.Info.Props
