import Verif.Own.Answers
import Verif.Own.TreeProps
import Verif.Nip47.Props
import Verif.Own.Defined

/-! # Property theorems: memory of a wallet's answers (C179) -/

namespace Nostr.Own.Answers.Props
open Nostr Nostr.Heap Nostr.Own Nostr.Own.Answers Nostr.Own.Tree Nostr.Json Nostr.Nip47 Nostr.Own.Defined

/-- What a variable holds after a call that was to store the text `o` (`none`: the answer has no such text) in it; the last argument are
the blocks that belong to it. -/
inductive Got (A : Alloc) (m0 m : Mem) (o : Option Bytes) : Var → Var → List Nat → Prop
  | unasked : Got A m0 m o none none []
  | kept {p} : o = none → Got A m0 m o (some p) (some p) []
  | text {p s a} : o = some s → m a = some (.str s) → Got A m0 m o (some p) (some (some a)) [a]
  | refused {p s} : o = some s → Refused A m0 → Got A m0 m o (some p) (some none) []

theorem Got.mono {A : Alloc} {m0 m m' : Mem} {o v w b} (g : Got A m0 m o v w b) (h : ∀ x ∈ b, m' x = m x) : Got A m0 m' o v w b := by
  cases g with
  | unasked => exact .unasked
  | kept h1 => exact .kept h1
  | text h1 h2 => exact .text h1 (by rw [h _ (by simp), h2])
  | refused h1 h2 => exact .refused h1 h2

theorem dup_ok {A : Alloc} (hA : Fresh A) (o : Option Bytes) (v : Var) {h0 : Mem} {h : Heap} {own : List Nat} (ow : Owned h0 h.mem own) :
    ∃ w h' b, dup A o v h = some (w, h') ∧ Owned h0 h'.mem (b ++ own) ∧ (∀ x ∈ own, h'.mem x = h.mem x) ∧ Got A h0 h'.mem o v w b := by
  cases v with
  | none => exact ⟨none, h, [], rfl, ow, fun _ _ => rfl, .unasked⟩
  | some p => cases o with
    | none => exact ⟨some p, h, [], rfl, ow, fun _ _ => rfl, .kept rfl⟩
    | some s =>
      rcases allocP hA ow (.str s) with ⟨h1, e1, m1, rf⟩ | ⟨a, h1, e1, v1, o1, s1⟩
      · exact ⟨some none, h1, [], by simp only [dup, M.bind, e1, Option.bind_some]; rfl, by rw [m1]; exact ow, fun x _ => by rw [m1], .refused rfl rf⟩
      · exact ⟨some (some a), h1, [a], by simp only [dup, M.bind, e1, Option.bind_some]; rfl, o1, s1, .text rfl v1⟩

theorem reprinted_ok {A : Alloc} (hA : Fresh A) (g : Bytes → Nat) (r : Bytes → Json) (o : Option Json) (v : Var) {h0 : Mem} {h : Heap} {own : List Nat}
    (ow : Owned h0 h.mem own) :
    ∃ w h' b, reprinted A g r o v h = some (w, h') ∧ Owned h0 h'.mem (b ++ own) ∧ (∀ x ∈ own, h'.mem x = h.mem x) ∧
      Got A h0 h'.mem (o.map (reprint r)) v w b := by
  cases v with
  | none => exact ⟨none, h, [], rfl, ow, fun _ _ => rfl, .unasked⟩
  | some p => cases o with
    | none => exact ⟨some p, h, [], rfl, ow, fun _ _ => rfl, .kept rfl⟩
    | some j =>
      obtain ⟨t, h1, e1, o1, s1, v1, r1⟩ := print_ok hA g false (some (mapNum r j)) ow
      cases t with
      | none => exact ⟨some none, h1, [], by simp only [reprinted, M.bind, e1, Option.bind_some]; rfl, o1, s1, .refused rfl (r1 rfl rfl)⟩
      | some a =>
        obtain ⟨w, hw, hv⟩ := v1 a rfl
        cases hw
        exact ⟨some (some a), h1, [a], by simp only [reprinted, M.bind, e1, Option.bind_some]; rfl, o1, s1, .text rfl hv⟩

/-- What `parsed` does, if what is done with the tree keeps to its blocks. -/
theorem parsed_ok {α} {A : Alloc} (hA : Fresh A) (s : Bytes) (f : Json → M α) (bad : α) {h0 : Mem} {h : Heap} {own : List Nat} (ow : Owned h0 h.mem own)
    (Q : Json → Mem → α → List Nat → Prop) (hmono : ∀ {j m m' x b}, Q j m x b → (∀ y ∈ b, m' y = m y) → Q j m' x b)
    (hf : ∀ {h : Heap} {own : List Nat} root, Owned h0 h.mem own → parse s = some root →
      ∃ x h' b, f root h = some (x, h') ∧ Owned h0 h'.mem (b ++ own) ∧ (∀ y ∈ own, h'.mem y = h.mem y) ∧ Q root h'.mem x b) :
    ∃ x h' b, parsed A s f bad h = some (x, h') ∧ Owned h0 h'.mem (b ++ own) ∧ (∀ y ∈ own, h'.mem y = h.mem y) ∧
      ((x = bad ∧ b = [] ∧ (parse s = none ∨ Refused A h0)) ∨ ∃ root, parse s = some root ∧ Q root h'.mem x b) := by
  unfold parsed
  cases hp : parse s with
  | none => exact ⟨bad, h, [], rfl, ow, fun _ _ => rfl, .inl ⟨rfl, rfl, .inl rfl⟩⟩
  | some root =>
    rcases allocP hA ow (.str s) with ⟨h1, e1, m1, rf⟩ | ⟨c, h1, e1, -, o1, s1⟩
    · exact ⟨bad, h1, [], by simp only [M.bind, e1, Option.bind_some]; rfl, by rw [m1]; exact ow, fun x _ => by rw [m1], .inl ⟨rfl, rfl, .inr rf⟩⟩
    · obtain ⟨x, h2, b, e2, o2, s2, q2⟩ := hf root o1 hp
      obtain ⟨h3, e3, o3, s3⟩ := freeP (h := h2) (p := some c) (b := b ++ own) (o2.perm (by simp only [Option.toList]; reorder))
      refine ⟨x, h3, b, by simp only [M.bind, e1, e2, e3, Option.bind_some]; rfl, o3, fun y hy => ?_, .inr ⟨root, rfl, hmono q2 fun y hy => s3 y (by simp [hy])⟩⟩
      rw [s3 y (by simp [hy]), s2 y (by simp [hy]), s1 y hy]

theorem opened_ok {α} {A : Alloc} (hA : Fresh A) (d : Bytes) (f : Bytes → M α) (no : α) {h0 : Mem} {h : Heap} {own : List Nat} (ow : Owned h0 h.mem own)
    (Q : Mem → α → List Nat → Prop) (hmono : ∀ {m m' x b}, Q m x b → (∀ y ∈ b, m' y = m y) → Q m' x b)
    (hf : ∀ {h : Heap} {own : List Nat}, Owned h0 h.mem own → ∃ x h' b, f (cstr d) h = some (x, h') ∧ Owned h0 h'.mem (b ++ own) ∧
      (∀ y ∈ own, h'.mem y = h.mem y) ∧ Q h'.mem x b) :
    ∃ x h' b, opened A d f no h = some (x, h') ∧ Owned h0 h'.mem (b ++ own) ∧ (∀ y ∈ own, h'.mem y = h.mem y) ∧
      ((x = no ∧ b = [] ∧ Refused A h0) ∨ Q h'.mem x b) := by
  unfold opened
  rcases allocP hA ow (.str d) with ⟨h1, e1, m1, rf⟩ | ⟨c, h1, e1, -, o1, s1⟩
  · exact ⟨no, h1, [], by simp only [M.bind, e1, Option.bind_some]; rfl, by rw [m1]; exact ow, fun x _ => by rw [m1], .inl ⟨rfl, rfl, rf⟩⟩
  · obtain ⟨x, h2, b, e2, o2, s2, q2⟩ := hf o1
    obtain ⟨h3, e3, o3, s3⟩ := freeP (h := h2) (p := some c) (b := b ++ own) (o2.perm (by simp only [Option.toList]; reorder))
    refine ⟨x, h3, b, by simp only [M.bind, e1, e2, e3, Option.bind_some]; rfl, o3, fun y hy => ?_, .inr (hmono q2 fun y hy => s3 y (by simp [hy]))⟩
    rw [s3 y (by simp [hy]), s2 y (by simp [hy]), s1 y hy]

theorem openResponse_defined (E : Nip47.Env) (e : Event.Event) (sk : Bytes) : openResponse E e sk ≠ .ub := by
  unfold openResponse
  split
  · simp
  · split
    · split
      · simp
      · exact decrypt_defined _ _ _ _ _ _
    · simp

theorem openNotification_defined (E : Nip47.Env) (e : Event.Event) (sk : Bytes) : openNotification E e sk ≠ .ub := by
  unfold openNotification
  split
  · simp
  · split
    · simp
    · split
      · simp
      · exact decrypt_defined _ _ _ _ _ _

/-- The four variables of a response. -/
def GotReply (A : Alloc) (m0 m : Mem) (R : Reply) (o w : Outs) (b : List Nat) : Prop :=
  ∃ b1 b2 b3 b4, b = b4 ++ b3 ++ b2 ++ b1 ∧ Got A m0 m R.type o.type w.type b1 ∧ Got A m0 m R.result o.result w.result b2 ∧
    Got A m0 m R.code o.code w.code b3 ∧ Got A m0 m R.message o.message w.message b4

theorem GotReply.mono {A : Alloc} {m0 m m' : Mem} {R o w b} (g : GotReply A m0 m R o w b) (h : ∀ x ∈ b, m' x = m x) : GotReply A m0 m' R o w b := by
  obtain ⟨b1, b2, b3, b4, rfl, g1, g2, g3, g4⟩ := g
  exact ⟨b1, b2, b3, b4, rfl, g1.mono fun x hx => h x (by simp [hx]), g2.mono fun x hx => h x (by simp [hx]), g3.mono fun x hx => h x (by simp [hx]),
    g4.mono fun x hx => h x (by simp [hx])⟩

theorem replyOut_ok {A : Alloc} (hA : Fresh A) (g : Bytes → Nat) (r : Bytes → Json) (o : Outs) (s : Bytes) (root : Json) (hp : parse s = some root)
    {h0 : Mem} {h : Heap} {own : List Nat} (ow : Owned h0 h.mem own) :
    ∃ x h' b, replyOut A g r o root h = some (x, h') ∧ Owned h0 h'.mem (b ++ own) ∧ (∀ y ∈ own, h'.mem y = h.mem y) ∧
      x.1 = none ∧ ∃ R, replyOf r s = .ok R ∧ GotReply A h0 h'.mem R o x.2 b := by
  obtain ⟨w1, h1, b1, e1, o1, s1, g1⟩ := dup_ok hA ((get root (c!"result_type")).bind asStr) o.type ow
  obtain ⟨w2, h2, b2, e2, o2, s2, g2⟩ := reprinted_ok hA g r (get root (c!"result")) o.result o1
  obtain ⟨w3, h3, b3, e3, o3, s3, g3⟩ := dup_ok hA (((get root (c!"error")).bind (get · (c!"code"))).bind asStr) o.code o2
  obtain ⟨w4, h4, b4, e4, o4, s4, g4⟩ := dup_ok hA (((get root (c!"error")).bind (get · (c!"message"))).bind asStr) o.message o3
  refine ⟨(none, ⟨w1, w2, w3, w4⟩), h4, b4 ++ b3 ++ b2 ++ b1, by simp only [replyOut, M.bind, e1, e2, e3, e4, Option.bind_some]; rfl, by simpa using o4, ?_, rfl,
    _, by unfold replyOf; rw [hp], b1, b2, b3, b4, rfl, ?_, ?_, ?_, g4⟩
  · intro y hy
    rw [s4 y (by simp [hy]), s3 y (by simp [hy]), s2 y (by simp [hy]), s1 y hy]
  · exact g1.mono fun y hy => by rw [s4 y (by simp [hy]), s3 y (by simp [hy]), s2 y (by simp [hy])]
  · exact g2.mono fun y hy => by rw [s4 y (by simp [hy]), s3 y (by simp [hy])]
  · exact g3.mono fun y hy => by rw [s4 y (by simp [hy])]

/-- **C179**, responses. The call never does anything undefined. If it reports an error, the variables and the memory are as before. If it
reports success, every variable that was asked for has the text of the answer in a block of its own, or what it had if the answer has no
such text; the memory is as before but for these blocks. Missing: with memory refused, a variable may be NULL though the answer has a
text (`C179_refuted`). -/
theorem C179_response_partial {A : Alloc} (hA : Fresh A) (E : Nip47.Env) (g : Bytes → Nat) (r : Bytes → Json) (e : Event.Event) (sk : Bytes) (o : Outs)
    (h : Heap) :
    ∃ x h' b, parseResponse A E g r e sk o h = some (x, h') ∧ Owned h.mem h'.mem b ∧
      (match x.1 with
        | some _ => x.2 = o ∧ h'.mem = h.mem
        | none => ∃ R, Nip47.parseResponse E r e sk = .ok R ∧ GotReply A h.mem h'.mem R o x.2 b) ∧
      (¬ Refused A h.mem → match Nip47.parseResponse E r e sk with
        | .ok _ => x.1 = none
        | .err y => x.1 = some y
        | .ub => False) := by
  unfold parseResponse Nip47.parseResponse
  cases ho : openResponse E e sk with
  | ub => exact absurd ho (openResponse_defined E e sk)
  | err x => exact ⟨(some x, o), h, [], rfl, Owned.nil _, ⟨rfl, rfl⟩, fun _ => rfl⟩
  | ok d =>
    obtain ⟨x, h', b, e1, o1, -, c1⟩ := opened_ok hA d (fun s => parsed A s (replyOut A g r o) (some .invalidParam, o)) (some .memory, o) (Owned.nil h.mem)
      (fun m x b => (x = (some .invalidParam, o) ∧ b = [] ∧ (parse (cstr d) = none ∨ Refused A h.mem)) ∨
        ∃ root, parse (cstr d) = some root ∧ x.1 = none ∧ ∃ R, replyOf r (cstr d) = .ok R ∧ GotReply A h.mem m R o x.2 b)
      (by
        rintro m m' x b (q | ⟨root, hp, hx, R, hR, q⟩) hm
        · exact .inl q
        · exact .inr ⟨root, hp, hx, R, hR, q.mono hm⟩)
      (by
        intro h1 own o1
        obtain ⟨x, h', b, e1, o2, s1, c1⟩ := parsed_ok hA (cstr d) (replyOut A g r o) (some .invalidParam, o) o1
          (fun _ m x b => x.1 = none ∧ ∃ R, replyOf r (cstr d) = .ok R ∧ GotReply A h.mem m R o x.2 b)
          (by rintro j m m' x b ⟨hx, R, hR, q⟩ hm; exact ⟨hx, R, hR, q.mono hm⟩)
          (fun root ow hp => replyOut_ok hA g r o (cstr d) root hp ow)
        exact ⟨x, h', b, e1, o2, s1, c1⟩)
    rw [List.append_nil] at o1
    refine ⟨x, h', b, e1, o1, ?_, ?_⟩
    · rcases c1 with ⟨rfl, rfl, -⟩ | ⟨rfl, rfl, -⟩ | ⟨root, -, hx, R, hR, q⟩
      · exact ⟨rfl, o1.eq⟩
      · exact ⟨rfl, o1.eq⟩
      · rw [hx]
        exact ⟨R, hR, q⟩
    · intro hr
      rcases c1 with ⟨-, -, rf⟩ | ⟨rfl, -, hp | rf⟩ | ⟨root, -, hx, R, hR, q⟩
      · exact absurd rf hr
      · simp only [Res.bind_ok, replyOf, hp]
      · exact absurd rf hr
      · simp only [Res.bind_ok, hR, hx]

/-- **C179**, notifications, in the same way. -/
theorem C179_notification_partial {A : Alloc} (hA : Fresh A) (E : Nip47.Env) (g : Bytes → Nat) (r : Bytes → Json) (e : Event.Event) (sk : Bytes) (o : Var × Var)
    (h : Heap) :
    ∃ x h' b1 b2, parseNotification A E g r e sk o h = some (x, h') ∧ Owned h.mem h'.mem (b2 ++ b1) ∧
      (match x.1 with
        | some _ => x.2 = o ∧ h'.mem = h.mem
        | none => ∃ R, Nip47.parseNotification E r e sk = .ok R ∧ Got A h.mem h'.mem R.1 o.1 x.2.1 b1 ∧ Got A h.mem h'.mem R.2 o.2 x.2.2 b2) ∧
      (¬ Refused A h.mem → match Nip47.parseNotification E r e sk with
        | .ok _ => x.1 = none
        | .err y => x.1 = some y
        | .ub => False) := by
  have hv : Nip47.parseNotification E r e sk = (openNotification E e sk >>= fun d => match parse (cstr d) with
      | none => .err .invalidParam
      | some root => .ok ((get root (c!"notification_type")).bind asStr, (get root (c!"notification")).map (reprint r))) := by
    unfold Nip47.parseNotification openNotification
    split
    · rfl
    · split
      · rfl
      · cases e.content <;> rfl
  rw [hv]
  unfold parseNotification
  cases ho : openNotification E e sk with
  | ub => exact absurd ho (openNotification_defined E e sk)
  | err x => exact ⟨(some x, o), h, [], [], rfl, Owned.nil _, ⟨rfl, rfl⟩, fun _ => rfl⟩
  | ok d =>
    let V : Json → Option Bytes × Option Bytes := fun root => ((get root (c!"notification_type")).bind asStr, (get root (c!"notification")).map (reprint r))
    let Q : Json → Mem → Option Err × Var × Var → List Nat → Prop := fun root m x b => x.1 = none ∧ ∃ b1 b2, b = b2 ++ b1 ∧
      Got A h.mem m (V root).1 o.1 x.2.1 b1 ∧ Got A h.mem m (V root).2 o.2 x.2.2 b2
    have qm : ∀ {j m m' x b}, Q j m x b → (∀ y ∈ b, m' y = m y) → Q j m' x b := by
      rintro j m m' x b ⟨hx, b1, b2, rfl, q1, q2⟩ hm
      exact ⟨hx, b1, b2, rfl, q1.mono fun y hy => hm y (by simp [hy]), q2.mono fun y hy => hm y (by simp [hy])⟩
    obtain ⟨x, h', b, e1, o1, -, c1⟩ := opened_ok hA d (fun s => parsed A s (noteOut A g r o) (some .invalidParam, o)) (some .memory, o) (Owned.nil h.mem)
      (fun m x b => (x = (some .invalidParam, o) ∧ b = [] ∧ (parse (cstr d) = none ∨ Refused A h.mem)) ∨
        ∃ root, parse (cstr d) = some root ∧ Q root m x b)
      (by
        rintro m m' x b (q | ⟨root, hp, q⟩) hm
        · exact .inl q
        · exact .inr ⟨root, hp, qm q hm⟩)
      (by
        intro h1 own o1
        obtain ⟨x, h', b, e1, o2, s1, c1⟩ := parsed_ok hA (cstr d) (noteOut A g r o) (some .invalidParam, o) o1 Q qm
          (by
            intro h2 own root ow hp
            obtain ⟨w1, h3, b1, e1, o1, s1, g1⟩ := dup_ok hA ((get root (c!"notification_type")).bind asStr) o.1 ow
            obtain ⟨w2, h4, b2, e2, o2, s2, g2⟩ := reprinted_ok hA g r (get root (c!"notification")) o.2 o1
            refine ⟨(none, w1, w2), h4, b2 ++ b1, by simp only [noteOut, M.bind, e1, e2, Option.bind_some]; rfl, by simpa using o2, ?_, rfl, b1, b2, rfl, ?_, g2⟩
            · intro y hy; rw [s2 y (by simp [hy]), s1 y hy]
            · exact g1.mono fun y hy => s2 y (by simp [hy]))
        exact ⟨x, h', b, e1, o2, s1, c1⟩)
    rw [List.append_nil] at o1
    rcases c1 with ⟨rfl, rfl, rf⟩ | ⟨rfl, rfl, rf⟩ | ⟨root, hp, hx, b1, b2, rfl, q1, q2⟩
    · exact ⟨_, h', [], [], e1, o1, ⟨rfl, o1.eq⟩, fun hr => absurd rf hr⟩
    · refine ⟨_, h', [], [], e1, o1, ⟨rfl, o1.eq⟩, fun hr => ?_⟩
      rcases rf with hp | rf
      · simp only [Res.bind_ok, hp]
      · exact absurd rf hr
    · refine ⟨x, h', b1, b2, e1, o1, ?_, fun hr => ?_⟩
      · rw [hx]
        exact ⟨V root, by simp only [Res.bind_ok, hp]; rfl, q1, q2⟩
      · simp only [Res.bind_ok, hp, hx]

/-- **C179**, the result of a payment, in the same way; the fees are those of the text. -/
theorem C179_paid_partial {A : Alloc} (hA : Fresh A) (real : Bytes → Int) (json : Bytes) (o : Var) (hu : Nip47.parsePaid real json ≠ .ub) (h : Heap) :
    ∃ x h' b, parsePaid A real json o h = some (x, h') ∧ Owned h.mem h'.mem b ∧
      (match x.1 with
        | some _ => x.2 = (o, none) ∧ h'.mem = h.mem
        | none => ∃ p, Nip47.parsePaid real json = .ok (p, x.2.2) ∧ Got A h.mem h'.mem p o x.2.1 b) ∧
      (¬ Refused A h.mem → match Nip47.parsePaid real json with
        | .ok _ => x.1 = none
        | .err y => x.1 = some y
        | .ub => False) := by
  obtain ⟨x, h', b, e1, o1, -, c1⟩ := parsed_ok hA json (fun root => M.bind (dup A ((get root (c!"preimage")).bind asStr) o) fun p =>
      match (get root (c!"fees_paid")).bind asNum with
      | none => M.pure (none, p, none)
      | some t => match toU64 real t with
        | .ok n => M.pure (none, p, some n)
        | _ => fun _ => none) (some Err.invalidParam, o, none) (Owned.nil h.mem)
    (fun _ m x b => x.1 = none ∧ ∃ p, Nip47.parsePaid real json = .ok (p, x.2.2) ∧ Got A h.mem m p o x.2.1 b)
    (by rintro j m m' x b ⟨hx, p, hp, q⟩ hm; exact ⟨hx, p, hp, q.mono hm⟩)
    (by
      intro h1 own root ow hp
      obtain ⟨w, h2, b, e1, o1, s1, g1⟩ := dup_ok hA ((get root (c!"preimage")).bind asStr) o ow
      unfold Nip47.parsePaid at hu
      rw [hp] at hu
      cases hf : (get root (c!"fees_paid")).bind asNum with
      | none =>
        refine ⟨(none, w, none), h2, b, by simp only [M.bind, e1, Option.bind_some]; rfl, o1, s1, rfl, _, ?_, g1⟩
        unfold Nip47.parsePaid; rw [hp]; simp only [hf]
      | some t =>
        simp only [hf] at hu
        cases ht : toU64 real t with
        | ok n =>
          refine ⟨(none, w, some n), h2, b, by simp only [M.bind, e1, Option.bind_some, ht]; rfl, o1, s1, rfl, _, ?_, g1⟩
          unfold Nip47.parsePaid; rw [hp]; simp only [hf, ht]; rfl
        | err e => unfold toU64 at ht; split at ht <;> cases ht
        | ub => rw [ht] at hu; exact absurd rfl hu)
  rw [List.append_nil] at o1
  refine ⟨x, h', b, e1, o1, ?_, fun hr => ?_⟩
  · rcases c1 with ⟨rfl, rfl, -⟩ | ⟨root, -, hx, p, hp, q⟩
    · exact ⟨rfl, o1.eq⟩
    · rw [hx]; exact ⟨p, hp, q⟩
  · rcases c1 with ⟨rfl, rfl, hp | rf⟩ | ⟨root, -, hx, p, hp, q⟩
    · simp only [Nip47.parsePaid, hp]
    · exact absurd rf hr
    · simp only [hp, hx]

/-! ## The answer to `get_info` -/

/-- The entries of the array of methods: a copy of every text (NULL if memory was refused); what the new memory held, for all others. The
last argument are the blocks of the copies. -/
inductive Entries (A : Alloc) (m0 m : Mem) : List Json → List (Option Nat) → List (Option Nat) → List Nat → Prop
  | nil : Entries A m0 m [] [] [] []
  | other {j l x js es b} : asStr j = none → Entries A m0 m l js es b → Entries A m0 m (j :: l) (x :: js) (x :: es) b
  | text {j l x js es b s p} : asStr j = some s → m p = some (.str s) → Entries A m0 m l js es b → Entries A m0 m (j :: l) (x :: js) (some p :: es) (p :: b)
  | refused {j l x js es b s} : asStr j = some s → Refused A m0 → Entries A m0 m l js es b → Entries A m0 m (j :: l) (x :: js) (none :: es) b

theorem Entries.mono {A : Alloc} {m0 m m' : Mem} {l js es b} (g : Entries A m0 m l js es b) : (∀ x ∈ b, m' x = m x) → Entries A m0 m' l js es b := by
  induction g with
  | nil => intro _; exact .nil
  | other h1 _ ih => intro h; exact .other h1 (ih h)
  | text h1 h2 _ ih => intro h; exact .text h1 (by rw [h _ (by simp), h2]) (ih fun x hx => h x (by simp [hx]))
  | refused h1 h2 _ ih => intro h; exact .refused h1 h2 (ih h)

theorem fill_ok {A : Alloc} (hA : Fresh A) (d : Nat) : ∀ (l : List Json) (pre js : List (Option Nat)) {h0 : Mem} {h : Heap} {own : List Nat}
    (_ : Owned h0 h.mem own) (_ : d ∈ own) (_ : h.mem d = some (.ptrs (pre ++ js))) (_ : js.length = l.length),
    ∃ h' es b, fill A d l pre.length h = some ((), h') ∧ Owned h0 h'.mem (b ++ own) ∧ (∀ x ∈ own, x ≠ d → h'.mem x = h.mem x) ∧
      h'.mem d = some (.ptrs (pre ++ es)) ∧ Entries A h0 h'.mem l js es b := by
  intro l
  induction l with
  | nil =>
    intro pre js h0 h own ow _ hm hl
    obtain rfl : js = [] := List.length_eq_zero_iff.mp hl
    exact ⟨h, [], [], rfl, ow, fun _ _ _ => rfl, hm, .nil⟩
  | cons j l ih =>
    intro pre js h0 h own ow hd hm hl
    obtain ⟨x, js, rfl⟩ : ∃ x t, js = x :: t := by cases js with
      | nil => simp at hl
      | cons x t => exact ⟨x, t, rfl⟩
    have hl' : js.length = l.length := by simpa using hl
    cases hj : asStr j with
    | none =>
      obtain ⟨h', es, b, e1, o1, s1, d1, g1⟩ := ih (pre ++ [x]) js ow hd (by simpa using hm) hl'
      refine ⟨h', x :: es, b, ?_, o1, s1, by simpa using d1, .other hj g1⟩
      simp only [fill, hj]
      simpa using e1
    | some s =>
      rcases allocP hA ow (.str s) with ⟨h1, e1, m1, rf⟩ | ⟨p, h1, e1, v1, o1, s1⟩
      · have hm1 : h1.mem d = some (.ptrs (pre ++ x :: js)) := by rw [m1]; exact hm
        have st : storePtr d pre.length none h1 = some ((), ⟨upd h1.mem d (some (.ptrs (pre ++ none :: js))), h1.tick⟩) := by
          simp [storePtr, hm1]
        obtain ⟨h', es, b, e2, o2, s2, d2, g2⟩ := ih (pre ++ [none]) js (h := ⟨upd h1.mem d (some (.ptrs (pre ++ none :: js))), h1.tick⟩)
          (Owned.write (by rw [m1]; exact ow) hd _) hd (by simp) hl'
        refine ⟨h', none :: es, b, ?_, o2, ?_, by simpa using d2, .refused hj rf g2⟩
        · simp only [fill, hj, M.bind, e1, st, Option.bind_some]; simpa using e2
        · intro y hy hyd
          rw [s2 y hy hyd]; simp only [upd_other _ _ hyd, m1]
      · have hpd : p ≠ d := by
          have := o1.nodup
          rintro rfl
          exact (List.nodup_cons.mp this).1 hd
        have hm1 : h1.mem d = some (.ptrs (pre ++ x :: js)) := by rw [s1 d hd]; exact hm
        have st : storePtr d pre.length (some p) h1 = some ((), ⟨upd h1.mem d (some (.ptrs (pre ++ some p :: js))), h1.tick⟩) := by
          simp [storePtr, hm1]
        obtain ⟨h', es, b, e2, o2, s2, d2, g2⟩ := ih (pre ++ [some p]) js (h := ⟨upd h1.mem d (some (.ptrs (pre ++ some p :: js))), h1.tick⟩)
          (Owned.write o1 (by simp [hd]) _) (by simp [hd]) (by simp) hl'
        refine ⟨h', some p :: es, p :: b, ?_, o2.perm (by reorder), ?_, by simpa using d2, .text hj ?_ g2⟩
        · simp only [fill, hj, M.bind, e1, st, Option.bind_some]; simpa using e2
        · intro y hy hyd
          rw [s2 y (by simp [hy]) hyd]; simp only [upd_other _ _ hyd, s1 y hy]
        · rw [s2 p (by simp) hpd]; simp only [upd_other _ _ hpd, v1]

/-- What the variables for the methods and their number hold afterwards. -/
inductive GotMethods (A : Alloc) (junk : Nat → List (Option Nat)) (m0 m : Mem) (o : Option (List Json)) :
    Option (Option Nat × Nat) → Option (Option Nat × Nat) → List Nat → Prop
  | unasked : GotMethods A junk m0 m o none none []
  | kept {p} : o = none → GotMethods A junk m0 m o (some p) (some p) []
  | array {p l d es b} : o = some l → m d = some (.ptrs es) → Entries A m0 m l (junk l.length) es b →
      GotMethods A junk m0 m o (some p) (some (some d, l.length)) (d :: b)
  | refused {p l} : o = some l → Refused A m0 → GotMethods A junk m0 m o (some p) (some (none, l.length)) []

theorem GotMethods.mono {A : Alloc} {junk} {m0 m m' : Mem} {o v w b} (g : GotMethods A junk m0 m o v w b) (h : ∀ x ∈ b, m' x = m x) :
    GotMethods A junk m0 m' o v w b := by
  cases g with
  | unasked => exact .unasked
  | kept h1 => exact .kept h1
  | array h1 h2 h3 => exact .array h1 (by rw [h _ (by simp), h2]) (h3.mono fun x hx => h x (by simp [hx]))
  | refused h1 h2 => exact .refused h1 h2

theorem methodsOut_ok {A : Alloc} (hA : Fresh A) {junk : Nat → List (Option Nat)} (hj : ∀ n, (junk n).length = n) (o : Option (List Json))
    (v : Option (Option Nat × Nat)) {h0 : Mem} {h : Heap} {own : List Nat} (ow : Owned h0 h.mem own) :
    ∃ w h' b, methodsOut A junk o v h = some (w, h') ∧ Owned h0 h'.mem (b ++ own) ∧ (∀ x ∈ own, h'.mem x = h.mem x) ∧ GotMethods A junk h0 h'.mem o v w b := by
  cases v with
  | none => exact ⟨none, h, [], rfl, ow, fun _ _ => rfl, .unasked⟩
  | some p => cases o with
    | none => exact ⟨some p, h, [], rfl, ow, fun _ _ => rfl, .kept rfl⟩
    | some l =>
      rcases allocP hA ow (.ptrs (junk l.length)) with ⟨h1, e1, m1, rf⟩ | ⟨d, h1, e1, v1, o1, s1⟩
      · exact ⟨some (none, l.length), h1, [], by simp only [methodsOut, M.bind, e1, Option.bind_some]; rfl, by rw [m1]; exact ow, fun x _ => by rw [m1],
          .refused rfl rf⟩
      · obtain ⟨h2, es, b, e2, o2, s2, d2, g2⟩ := fill_ok hA d l [] (junk l.length) o1 (by simp) (by simpa using v1) (hj _)
        simp only [List.length_nil] at e2
        refine ⟨some (some d, l.length), h2, d :: b, by simp only [methodsOut, M.bind, e1, e2, Option.bind_some]; rfl, o2.perm (by reorder), ?_,
          .array rfl (by simpa using d2) g2⟩
        intro y hy
        rw [s2 y (by simp [hy]) (by rintro rfl; exact (List.nodup_cons.mp o1.nodup).1 hy), s1 y hy]

/-- **C179**, the answer to `get_info`: four texts and the list of methods. If an error is reported, the variables and the memory are as
before, and the text is no JSON or memory was refused. If success is reported, each variable has the text of the answer (or what it had, if
there is none), the array has a copy of every method that is a text and `junk` — what the new memory held — in all other places, and the
memory is as before but for these blocks. Missing: memory refused (`C179_refuted`), entries that are no texts (`C179_methods_refuted`). -/
theorem C179_info_partial {A : Alloc} (hA : Fresh A) {junk : Nat → List (Option Nat)} (hj : ∀ n, (junk n).length = n) (json : Bytes) (o : InfoOuts) (h : Heap) :
    ∃ x h' b, parseInfoResponse A junk json o h = some (x, h') ∧ Owned h.mem h'.mem b ∧
      (match x.1 with
        | some y => x.2 = o ∧ h'.mem = h.mem ∧ y = .invalidParam ∧ (parse json = none ∨ Refused A h.mem)
        | none => ∃ root, parse json = some root ∧ ∃ b1 b2 b3 b4 b5, b = b5 ++ b4 ++ b3 ++ b2 ++ b1 ∧
          Got A h.mem h'.mem ((get root (c!"alias")).bind asStr) o.alias x.2.alias b1 ∧
          Got A h.mem h'.mem ((get root (c!"color")).bind asStr) o.color x.2.color b2 ∧
          Got A h.mem h'.mem ((get root (c!"pubkey")).bind asStr) o.pubkey x.2.pubkey b3 ∧
          Got A h.mem h'.mem ((get root (c!"network")).bind asStr) o.network x.2.network b4 ∧
          GotMethods A junk h.mem h'.mem ((get root (c!"methods")).bind asArr) o.methods x.2.methods b5) := by
  let Q : Json → Mem → Option Err × InfoOuts → List Nat → Prop := fun root m x b => x.1 = none ∧ ∃ b1 b2 b3 b4 b5, b = b5 ++ b4 ++ b3 ++ b2 ++ b1 ∧
          Got A h.mem m ((get root (c!"alias")).bind asStr) o.alias x.2.alias b1 ∧
          Got A h.mem m ((get root (c!"color")).bind asStr) o.color x.2.color b2 ∧
          Got A h.mem m ((get root (c!"pubkey")).bind asStr) o.pubkey x.2.pubkey b3 ∧
          Got A h.mem m ((get root (c!"network")).bind asStr) o.network x.2.network b4 ∧
          GotMethods A junk h.mem m ((get root (c!"methods")).bind asArr) o.methods x.2.methods b5
  obtain ⟨x, h', b, e1, o1, -, c1⟩ := parsed_ok hA json (infoOut A junk o) (some .invalidParam, o) (Owned.nil h.mem) Q
    (by
      rintro j m m' x b ⟨hx, b1, b2, b3, b4, b5, rfl, g1, g2, g3, g4, g5⟩ hm
      exact ⟨hx, b1, b2, b3, b4, b5, rfl, g1.mono fun y hy => hm y (by simp [hy]), g2.mono fun y hy => hm y (by simp [hy]),
        g3.mono fun y hy => hm y (by simp [hy]), g4.mono fun y hy => hm y (by simp [hy]), g5.mono fun y hy => hm y (by simp [hy])⟩)
    (by
      intro h1 own root ow hp
      obtain ⟨w1, h1, b1, e1, o1, s1, g1⟩ := dup_ok hA ((get root (c!"alias")).bind asStr) o.alias ow
      obtain ⟨w2, h2, b2, e2, o2, s2, g2⟩ := dup_ok hA ((get root (c!"color")).bind asStr) o.color o1
      obtain ⟨w3, h3, b3, e3, o3, s3, g3⟩ := dup_ok hA ((get root (c!"pubkey")).bind asStr) o.pubkey o2
      obtain ⟨w4, h4, b4, e4, o4, s4, g4⟩ := dup_ok hA ((get root (c!"network")).bind asStr) o.network o3
      obtain ⟨w5, h5, b5, e5, o5, s5, g5⟩ := methodsOut_ok hA hj ((get root (c!"methods")).bind asArr) o.methods o4
      refine ⟨(none, ⟨w1, w2, w3, w4, w5⟩), h5, b5 ++ b4 ++ b3 ++ b2 ++ b1, by simp only [infoOut, M.bind, e1, e2, e3, e4, e5, Option.bind_some]; rfl,
        by simpa using o5, ?_, rfl, b1, b2, b3, b4, b5, rfl, ?_, ?_, ?_, ?_, g5⟩
      · intro y hy
        rw [s5 y (by simp [hy]), s4 y (by simp [hy]), s3 y (by simp [hy]), s2 y (by simp [hy]), s1 y hy]
      · exact g1.mono fun y hy => by rw [s5 y (by simp [hy]), s4 y (by simp [hy]), s3 y (by simp [hy]), s2 y (by simp [hy])]
      · exact g2.mono fun y hy => by rw [s5 y (by simp [hy]), s4 y (by simp [hy]), s3 y (by simp [hy])]
      · exact g3.mono fun y hy => by rw [s5 y (by simp [hy]), s4 y (by simp [hy])]
      · exact g4.mono fun y hy => by rw [s5 y (by simp [hy])])
  rw [List.append_nil] at o1
  refine ⟨x, h', b, e1, o1, ?_⟩
  rcases c1 with ⟨rfl, rfl, hp⟩ | ⟨root, hp, hx, q⟩
  · exact ⟨rfl, o1.eq, rfl, hp⟩
  · rw [hx]; exact ⟨root, hp, q⟩

/-! ## Cases -/

/-- A text encrypted with toy cryptography. -/
def toyText : Option Bytes :=
  match Nip44.encrypt Nip44.Props.toyNc Nip44.Props.toyB64 none (some (List.replicate 32 1)) [1] [4]
      (c!"{\"result_type\":\"pay\",\"result\":{\"a\":1}}") with
  | .ok t => some t
  | _ => none

/-- A response of the wallet. -/
def reply : Event.Event := ⟨[], [], 0, 23195, [[c!"encryption", c!"nip44_v2"]], toyText, []⟩

/-- The type and the result of a response are handed out; without memory for the printed result the type alone is, with success. -/
example : (parseResponse (Filter.Props.failAt 99) Nip47.Props.toyEnv (fun _ => 1) .num reply [1] ⟨some none, some none, some none, none⟩ Tree.Props.empty).map (fun r =>
      (r.1.1, r.1.2.type.map (Tree.Props.textAt r.2), r.1.2.result.map (Tree.Props.textAt r.2))) =
        some (none, some (some (c!"pay")), some (some (c!"{\"a\":1}"))) ∧
    (parseResponse (Filter.Props.failAt 3) Nip47.Props.toyEnv (fun _ => 1) .num reply [1] ⟨some none, some none, some none, none⟩ Tree.Props.empty).map (fun r =>
      (r.1.1, r.1.2.type.map (Tree.Props.textAt r.2), r.1.2.result.map (Tree.Props.textAt r.2))) =
        some (none, some (some (c!"pay")), some none) := by
  constructor <;> decide +kernel

/-- New memory that happens to hold the address 7 everywhere. -/
def sevens (n : Nat) : List (Option Nat) := List.replicate n (some 7)

example : ∀ n, (sevens n).length = n := by simp [sevens]

/-- A number as it stands. -/
def plain (_ : Bytes) : Int := 0

/-- All five variables are asked for. -/
def all : InfoOuts := ⟨some none, some none, some none, some none, some (none, 0)⟩

/-- An answer to `get_info`. -/
def infoText : Bytes := c!"{\"alias\":\"w\",\"methods\":[\"pay\",\"x\"]}"

/-- With enough memory all is there. -/
example : (parseInfoResponse (Filter.Props.failAt 99) sevens infoText all Tree.Props.empty).map (fun r =>
    ((r.1.1, r.1.2.color), r.1.2.alias.map (Tree.Props.textAt r.2), r.1.2.methods.map fun w => w.2)) =
      some ((none, some none), some (some (c!"w")), some 2) := by
  decide +kernel

example : (parsePaid (Filter.Props.failAt 99) plain (c!"{\"preimage\":\"ab\",\"fees_paid\":5}") (some none) Tree.Props.empty).map (fun r =>
    (r.1.1, r.1.2.1.map (Tree.Props.textAt r.2), r.1.2.2)) = some (none, some (some (c!"ab")), some 5) := by decide +kernel

/-- **C179 fails** without memory: success is reported, and a payment with its proof looks like one without (the variables hold the same); a
wallet has two methods, and the array of them is NULL, so that a loop over the methods reads from NULL. -/
theorem C179_refuted : ∃ A B, Fresh A ∧ Fresh B ∧
    (parsePaid A plain (c!"{\"preimage\":\"ab\",\"fees_paid\":5}") (some none) Tree.Props.empty).map (·.1) = some (none, some none, some 5) ∧
    (parsePaid A plain (c!"{\"fees_paid\":5}") (some none) Tree.Props.empty).map (·.1) = some (none, some none, some 5) ∧
    (parseInfoResponse B sevens (c!"{\"methods\":[\"pay\",\"x\"]}") all Tree.Props.empty).map (fun r => (r.1.1, r.1.2.methods)) = some (none, some (none, 2)) ∧
    (parseInfoResponse B sevens (c!"{\"methods\":[\"pay\",\"x\"]}") all Tree.Props.empty >>= fun r =>
      loadPtr none 0 r.2).isNone :=
  ⟨Filter.Props.failAt 1, Filter.Props.failAt 1, Ev.Props.failAt_fresh 1, Ev.Props.failAt_fresh 1, by decide +kernel, by decide +kernel, by decide +kernel,
    by decide +kernel⟩

/-- **C179 fails** with all the memory there is: a wallet that lists a number among its methods makes the documented release of the array
free whatever address the new memory happened to hold (here 7, where nothing is); with zeros in the new memory it works. -/
theorem C179_methods_refuted :
    (parseInfoResponse (Filter.Props.failAt 99) sevens (c!"{\"methods\":[\"pay\",7]}") all Tree.Props.empty).map (fun r =>
      (r.1.1, (r.1.2.methods.bind fun w => freeStrings w.1 w.2 r.2).isSome)) = some (none, false) ∧
    (parseInfoResponse (Filter.Props.failAt 99) (fun n => List.replicate n none) (c!"{\"methods\":[\"pay\",7]}") all Tree.Props.empty).map (fun r =>
      (r.1.1, (r.1.2.methods.bind fun w => freeStrings w.1 w.2 r.2).isSome)) = some (none, true) := by
  constructor <;> decide +kernel

end Nostr.Own.Answers.Props
