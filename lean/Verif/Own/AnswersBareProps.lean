import Verif.Own.AnswersBare
import Verif.Own.AnswersProps

/-! # Property theorems: memory of a wallet's answers in the build without cJSON (C179) -/

namespace Nostr.Own.Answers.Props
open Nostr Nostr.Heap Nostr.Own Nostr.Own.Answers Nostr.Own.Tree Nostr.Nip47

theorem replyBare_ok {A : Alloc} (hA : Fresh A) (o : Outs) {h0 : Mem} {h : Heap} {own : List Nat} (ow : Owned h0 h.mem own) :
    ∃ x h' b, replyBare A o h = some (x, h') ∧ Owned h0 h'.mem (b ++ own) ∧ (∀ y ∈ own, h'.mem y = h.mem y) ∧
      x.1 = none ∧ ∃ b1 b2, b = b2 ++ b1 ∧ Got A h0 h'.mem (some (c!"unknown")) o.type x.2.type b1 ∧
        Got A h0 h'.mem (some (c!"{}")) o.result x.2.result b2 ∧ x.2.code = o.code.map (fun _ => none) ∧ x.2.message = o.message.map fun _ => none := by
  obtain ⟨w1, h1, b1, e1, o1, s1, g1⟩ := dup_ok hA (some (c!"unknown")) o.type ow
  obtain ⟨w2, h2, b2, e2, o2, s2, g2⟩ := dup_ok hA (some (c!"{}")) o.result o1
  refine ⟨_, h2, b2 ++ b1, by simp only [replyBare, M.bind, e1, e2, Option.bind_some]; rfl, by simpa using o2, ?_, rfl, b1, b2, rfl, ?_, g2, rfl, rfl⟩
  · intro y hy
    rw [s2 y (by simp [hy]), s1 y hy]
  · exact g1.mono fun y hy => s2 y (by simp [hy])

theorem noteBare_ok {A : Alloc} (hA : Fresh A) (o : Var × Var) {h0 : Mem} {h : Heap} {own : List Nat} (ow : Owned h0 h.mem own) :
    ∃ x h' b, noteBare A o h = some (x, h') ∧ Owned h0 h'.mem (b ++ own) ∧ (∀ y ∈ own, h'.mem y = h.mem y) ∧
      x.1 = none ∧ ∃ b1 b2, b = b2 ++ b1 ∧ Got A h0 h'.mem (some (c!"unknown")) o.1 x.2.1 b1 ∧ Got A h0 h'.mem (some (c!"{}")) o.2 x.2.2 b2 := by
  obtain ⟨w1, h1, b1, e1, o1, s1, g1⟩ := dup_ok hA (some (c!"unknown")) o.1 ow
  obtain ⟨w2, h2, b2, e2, o2, s2, g2⟩ := dup_ok hA (some (c!"{}")) o.2 o1
  refine ⟨_, h2, b2 ++ b1, by simp only [noteBare, M.bind, e1, e2, Option.bind_some]; rfl, by simpa using o2, ?_, rfl, b1, b2, rfl, ?_, g2⟩
  · intro y hy
    rw [s2 y (by simp [hy]), s1 y hy]
  · exact g1.mono fun y hy => s2 y (by simp [hy])

/-- **C179**, responses in the build without cJSON: an error leaves variables and memory as they were; with success the texts handed out
are all the memory that is new, and the variables for the error are NULL. Missing as in `C179_response_partial`; what the texts say is
C193. -/
theorem C179_bare_response_partial {A : Alloc} (hA : Fresh A) (E : Nip47.Env) (e : Event.Event) (sk : Bytes) (o : Outs) (h : Heap) :
    ∃ x h' b, parseResponseBare A E e sk o h = some (x, h') ∧ Owned h.mem h'.mem b ∧
      (match x.1 with
        | some _ => x.2 = o ∧ h'.mem = h.mem
        | none => ∃ R, responseBare E e sk = .ok R ∧ ∃ b1 b2, b = b2 ++ b1 ∧ Got A h.mem h'.mem R.type o.type x.2.type b1 ∧
            Got A h.mem h'.mem R.result o.result x.2.result b2 ∧ x.2.code = o.code.map (fun _ => none) ∧ x.2.message = o.message.map fun _ => none) ∧
      (¬ Refused A h.mem → match responseBare E e sk with
        | .ok _ => x.1 = none
        | .err y => x.1 = some y
        | .ub => False) := by
  unfold parseResponseBare responseBare
  cases ho : openResponse E e sk with
  | ub => exact absurd ho (openResponse_defined E e sk)
  | err x => exact ⟨(some x, o), h, [], rfl, Owned.nil _, ⟨rfl, rfl⟩, fun _ => rfl⟩
  | ok d =>
    obtain ⟨x, h', b, e1, o1, -, c1⟩ := opened_ok hA d (fun _ => replyBare A o) (some .memory, o) (Owned.nil h.mem)
      (fun m x b => x.1 = none ∧ ∃ b1 b2, b = b2 ++ b1 ∧ Got A h.mem m (some (c!"unknown")) o.type x.2.type b1 ∧
        Got A h.mem m (some (c!"{}")) o.result x.2.result b2 ∧ x.2.code = o.code.map (fun _ => none) ∧ x.2.message = o.message.map fun _ => none)
      (by
        rintro m m' x b ⟨hx, b1, b2, rfl, g1, g2, hc, hm⟩ hh
        exact ⟨hx, b1, b2, rfl, g1.mono fun y hy => hh y (by simp [hy]), g2.mono fun y hy => hh y (by simp [hy]), hc, hm⟩)
      (fun ow => replyBare_ok hA o ow)
    rw [List.append_nil] at o1
    refine ⟨x, h', b, e1, o1, ?_, ?_⟩
    · rcases c1 with ⟨rfl, rfl, -⟩ | ⟨hx, b1, b2, hb, g1, g2, hc, hm⟩
      · exact ⟨rfl, o1.eq⟩
      · rw [hx]
        exact ⟨_, rfl, b1, b2, hb, g1, g2, hc, hm⟩
    · intro hr
      rcases c1 with ⟨-, -, rf⟩ | ⟨hx, -⟩
      · exact absurd rf hr
      · exact hx

/-- **C179**, notifications in the build without cJSON. -/
theorem C179_bare_notification_partial {A : Alloc} (hA : Fresh A) (E : Nip47.Env) (e : Event.Event) (sk : Bytes) (o : Var × Var) (h : Heap) :
    ∃ x h' b, parseNotificationBare A E e sk o h = some (x, h') ∧ Owned h.mem h'.mem b ∧
      (match x.1 with
        | some _ => x.2 = o ∧ h'.mem = h.mem
        | none => ∃ R, notificationBare E e sk = .ok R ∧ ∃ b1 b2, b = b2 ++ b1 ∧ Got A h.mem h'.mem R.1 o.1 x.2.1 b1 ∧
            Got A h.mem h'.mem R.2 o.2 x.2.2 b2) ∧
      (¬ Refused A h.mem → match notificationBare E e sk with
        | .ok _ => x.1 = none
        | .err y => x.1 = some y
        | .ub => False) := by
  have hv : notificationBare E e sk = (openNotification E e sk >>= fun _ => .ok (some (c!"unknown"), some (c!"{}"))) := by
    unfold notificationBare openNotification
    split
    · rfl
    · split
      · rfl
      · cases e.content <;> rfl
  rw [hv]
  unfold parseNotificationBare
  cases ho : openNotification E e sk with
  | ub => exact absurd ho (openNotification_defined E e sk)
  | err x => exact ⟨(some x, o), h, [], rfl, Owned.nil _, ⟨rfl, rfl⟩, fun _ => rfl⟩
  | ok d =>
    obtain ⟨x, h', b, e1, o1, -, c1⟩ := opened_ok hA d (fun _ => noteBare A o) (some .memory, o) (Owned.nil h.mem)
      (fun m x b => x.1 = none ∧ ∃ b1 b2, b = b2 ++ b1 ∧ Got A h.mem m (some (c!"unknown")) o.1 x.2.1 b1 ∧
        Got A h.mem m (some (c!"{}")) o.2 x.2.2 b2)
      (by
        rintro m m' x b ⟨hx, b1, b2, rfl, g1, g2⟩ hh
        exact ⟨hx, b1, b2, rfl, g1.mono fun y hy => hh y (by simp [hy]), g2.mono fun y hy => hh y (by simp [hy])⟩)
      (fun ow => noteBare_ok hA o ow)
    rw [List.append_nil] at o1
    refine ⟨x, h', b, e1, o1, ?_, ?_⟩
    · rcases c1 with ⟨rfl, rfl, -⟩ | ⟨hx, b1, b2, hb, g1, g2⟩
      · exact ⟨rfl, o1.eq⟩
      · rw [hx]
        exact ⟨_, rfl, b1, b2, hb, g1, g2⟩
    · intro hr
      rcases c1 with ⟨-, -, rf⟩ | ⟨hx, -⟩
      · exact absurd rf hr
      · exact hx

/-- **C179**, payments in the build without cJSON: the copy of the preimage is all the memory that is new. -/
theorem C179_bare_paid_partial {A : Alloc} (hA : Fresh A) (json : Bytes) (o : Var) (h : Heap) :
    ∃ x h' b, parsePaidBare A json o h = some (x, h') ∧ Owned h.mem h'.mem b ∧ x.1 = none ∧
      ∃ p, paidBare json = .ok (p, x.2.2) ∧ Got A h.mem h'.mem p o x.2.1 b := by
  obtain ⟨w1, h1, b1, e1, o1, s1, g1⟩ := dup_ok hA (preimageBare json) o (Owned.nil h.mem)
  rw [List.append_nil] at o1
  exact ⟨_, h1, b1, by simp only [parsePaidBare, M.bind, e1, Option.bind_some]; rfl, o1, rfl, _, rfl, g1⟩

/-- **C179**, the description of the wallet in the build without cJSON. -/
theorem C179_bare_info_partial {A : Alloc} (hA : Fresh A) (json : Bytes) (o : InfoOuts) (h : Heap) :
    ∃ x h' i b1 b2 b3 b4, parseInfoBare A o h = some (x, h') ∧ Owned h.mem h'.mem (b4 ++ b3 ++ b2 ++ b1) ∧ x.1 = none ∧ infoBare json = .ok i ∧
      Got A h.mem h'.mem (some i.alias) o.alias x.2.alias b1 ∧ Got A h.mem h'.mem (some i.color) o.color x.2.color b2 ∧
      Got A h.mem h'.mem (some i.pubkey) o.pubkey x.2.pubkey b3 ∧ Got A h.mem h'.mem (some i.network) o.network x.2.network b4 ∧
      x.2.methods = o.methods.map fun _ => (none, i.methods.length) := by
  obtain ⟨w1, h1, b1, e1, o1, s1, g1⟩ := dup_ok hA (some (c!"wallet")) o.alias (Owned.nil h.mem)
  obtain ⟨w2, h2, b2, e2, o2, s2, g2⟩ := dup_ok hA (some (c!"#000000")) o.color o1
  obtain ⟨w3, h3, b3, e3, o3, s3, g3⟩ := dup_ok hA (some (List.replicate 64 0x30)) o.pubkey o2
  obtain ⟨w4, h4, b4, e4, o4, s4, g4⟩ := dup_ok hA (some (c!"mainnet")) o.network o3
  refine ⟨_, h4, _, b1, b2, b3, b4, by simp only [parseInfoBare, M.bind, e1, e2, e3, e4, Option.bind_some]; rfl, by simpa using o4, rfl, rfl, ?_, ?_, ?_, g4, rfl⟩
  · exact g1.mono fun y hy => by rw [s4 y (by simp [hy]), s3 y (by simp [hy]), s2 y (by simp [hy])]
  · exact g2.mono fun y hy => by rw [s4 y (by simp [hy]), s3 y (by simp [hy])]
  · exact g3.mono fun y hy => s4 y (by simp [hy])

/-- C179 fails in this build as in the other: without memory the preimage is missing and success is reported, as if the wallet had sent
none. -/
theorem C179_bare_refuted : ∃ A, Fresh A ∧
    (parsePaidBare A (c!"{\"preimage\":\"ab\",\"fees_paid\":5}") (some none) Tree.Props.empty).map (·.1) = some (none, some none, some 5) ∧
    (parsePaidBare A (c!"{\"fees_paid\":5}") (some none) Tree.Props.empty).map (·.1) = some (none, some none, some 5) :=
  ⟨Filter.Props.failAt 0, Ev.Props.failAt_fresh 0, by decide +kernel, by decide +kernel⟩

/-! ## Cases -/

/-- With memory the preimage is there. -/
example : (parsePaidBare (Filter.Props.failAt 99) (c!"{\"preimage\":\"ab\",\"fees_paid\":5}") (some none) Tree.Props.empty).map (fun r =>
    (r.1.1, r.1.2.1.map (Tree.Props.textAt r.2), r.1.2.2)) = some (none, some (some (c!"ab")), some 5) := by decide +kernel

/-- A response that can be opened. -/
example : (parseResponseBare (Filter.Props.failAt 99) Nip47.Props.toyEnv reply [1] ⟨some none, some none, some (some 7), none⟩ Tree.Props.empty).map (fun r =>
      (r.1.1, r.1.2.type.map (Tree.Props.textAt r.2), r.1.2.code)) = some (none, some (some (c!"unknown")), some none) := by
  decide +kernel

end Nostr.Own.Answers.Props
