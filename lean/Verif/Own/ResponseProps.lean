import Verif.Own.Response
import Verif.Own.TreeProps

/-!
# Property C184: a signer's response says what it was asked to say

`Part v j` (in `Verif/Own/TreeLemmas.lean`) says that `v` is the value `j` with some elements and members left out, on any level.
-/

namespace Nostr.Own.Response.Props
open Nostr Nostr.Heap Nostr.Own Nostr.Own.Tree Nostr.Own.Response Nostr.Json

/-- What a response says: its identifier and the error, if there is one, otherwise the result, which is `as`. -/
def says (p : Nip46.Response) (as : Bytes → Json) : Json :=
  .obj ((c!"id", .str p.id) :: match p.error, p.result with
    | some t, _ => [(c!"error", .str t)]
    | none, some t => [(c!"result", as t)]
    | none, none => [])

/-- The value of a text: what it says as JSON, or the text itself. -/
def value (r : Bytes → Json) (t : Bytes) : Json :=
  match parse t with
  | some j => mapNum r j
  | none => .str t

theorem says_value (r : Bytes → Json) (p : Nip46.Response) : Json.print false 0 (says p (value r)) = Nip46.responseText r p := by
  unfold says Nip46.responseText Nip46.outcome value
  cases p.error with
  | some t => rfl
  | none => cases p.result with
    | none => rfl
    | some t => cases h : parse t <;> simp [h]

/-- One member. -/
theorem one_ok {A : Alloc} (hA : Fresh A) (k s : Bytes) (cs : List Nat) {h0 : Mem} {h : Heap} {own : List Nat} (o : Owned h0 h.mem (cs ++ own)) :
    ∃ l cs' h', members A never (some cs) [(k, .str s)] h = some ((false, some cs', l), h') ∧ Owned h0 h'.mem (cs' ++ own) ∧
      (l = [] ∨ l = [(k, .str s)]) ∧ (¬ Refused A h0 → l = [(k, .str s)]) := by
  obtain ⟨⟨b, c, l⟩, h', lost, e, o', t, p, f, g⟩ := members_ok hA never [(k, .str s)] (some cs) o
  obtain ⟨fb, fl⟩ := f (by simp [scalar])
  cases c with
  | none => cases t
  | some c =>
    simp only at fb
    subst fb fl
    refine ⟨l, c, h', e, by simpa using o', ?_, fun hr => (g hr rfl).2.1⟩
    simp only at p
    cases p with
    | nil => exact .inl rfl
    | skip p => cases p; exact .inl rfl
    | keep q p => cases p; cases q; exact .inr rfl

/-- The member of the outcome. -/
def wish (p : Nip46.Response) (as : Bytes → Json) : List (Bytes × Json) :=
  match p.error, p.result with
  | some t, _ => [(c!"error", .str t)]
  | none, some t => [(c!"result", as t)]
  | none, none => []

theorem outcome_ok {A : Alloc} (hA : Fresh A) (r : Bytes → Json) (cs : List Nat) (p : Nip46.Response) {h0 : Mem} {h : Heap} (o : Owned h0 h.mem cs) :
    ∃ l cs' lost h', outcome A r cs p h = some ((cs', l), h') ∧ Owned h0 h'.mem (cs' ++ lost) ∧
      (l = [] ∨ l = wish p (value r) ∨ l = wish p .str) ∧ (¬ Refused A h0 → l = wish p (value r) ∧ lost = []) := by
  have text : ∀ (k s : Bytes) {h1 : Heap}, Owned h0 h1.mem cs →
      ∃ l cs' h', (M.bind (members A never (some cs) [(k, .str s)]) fun q => M.pure (q.2.1.getD [], q.2.2)) h1 = some ((cs', l), h') ∧
        Owned h0 h'.mem (cs' ++ []) ∧ (l = [] ∨ l = [(k, .str s)]) ∧ (¬ Refused A h0 → l = [(k, .str s)]) := by
    intro k s h1 o1
    obtain ⟨l, cs', h', e, o', p, g⟩ := one_ok hA k s cs (own := []) (by simpa using o1)
    exact ⟨l, cs', h', by simp only [M.bind, e, Option.bind_some]; rfl, o', p, g⟩
  unfold outcome wish
  cases he : p.error with
  | some t =>
    obtain ⟨l, cs', h', e, o', q, g⟩ := text (c!"error") t o
    exact ⟨l, cs', [], h', e, o', q.elim .inl (fun q => .inr (.inl q)), fun hr => ⟨g hr, rfl⟩⟩
  | none =>
    cases ht : p.result with
    | none => exact ⟨[], cs, [], h, rfl, by simpa using o, .inl rfl, fun _ => ⟨rfl, rfl⟩⟩
    | some t =>
      cases hj : parse t with
      | none =>
        obtain ⟨l, cs', h', e, o', q, g⟩ := text (c!"result") t o
        exact ⟨l, cs', [], h', by simp only [hj]; exact e, o', q.elim .inl (fun q => .inr (.inr q)), fun hr => ⟨by simp only [value, hj]; exact g hr, rfl⟩⟩
      | some j =>
        rcases allocP hA o (.str t) with ⟨h1, e1, m1, rf⟩ | ⟨b, h1, e1, -, o1, -⟩
        · obtain ⟨l, cs', h', e, o', q, -⟩ := text (c!"result") t (h1 := h1) (by rw [m1]; exact o)
          exact ⟨l, cs', [], h', by simp only [hj, M.bind, e1, Option.bind_some]; exact e, o', q.elim .inl (fun q => .inr (.inr q)), fun hr => absurd rf hr⟩
        · rcases allocP hA o1 (.str (c!"result")) with ⟨h2, e2, m2, rf⟩ | ⟨k, h2, e2, -, o2, -⟩
          · exact ⟨[], cs, [b], h2, by simp only [hj, M.bind, e1, e2, Option.bind_some]; rfl, by rw [m2]; exact o1.perm (by reorder), .inl rfl,
              fun hr => absurd rf hr⟩
          · exact ⟨[(c!"result", mapNum r j)], cs ++ [k, b], [], h2, by simp only [hj, M.bind, e1, e2, Option.bind_some]; rfl, o2.perm (by reorder),
              .inr (.inl (by simp only [value, hj])), fun _ => ⟨by simp only [value, hj], rfl⟩⟩

theorem content_ok {A : Alloc} (hA : Fresh A) (g : Bytes → Nat) (r : Bytes → Json) (p : Nip46.Response) (h : Heap) :
    ∃ t lost h', content A g r p h = some (t, h') ∧ Owned h.mem h'.mem (t.toList ++ lost) ∧
      (∀ a, t = some a → ∃ v, (Part v (says p (value r)) ∨ Part v (says p .str)) ∧ h'.mem a = some (.str (Json.print false 0 v))) ∧
      (¬ Refused A h.mem → lost = [] ∧ ∃ a, t = some a ∧ h'.mem a = some (.str (Json.print false 0 (says p (value r))))) := by
  rcases allocP hA (Owned.nil h.mem) (.str []) with ⟨h1, e1, m1, rf⟩ | ⟨n, h1, e1, -, o1, -⟩
  · exact ⟨none, [], h1, by simp only [content, create, M.bind, e1, Option.bind_some]; rfl, by rw [m1]; exact Owned.nil _, by simp, fun hr => absurd rf hr⟩
  · obtain ⟨i, cs, h2, e2, o2, p2, g2⟩ := one_ok hA (c!"id") p.id [n] (own := []) o1
    obtain ⟨l, cs', lost, h3, e3, o3, p3, g3⟩ := outcome_ok hA r cs p (by simpa using o2)
    obtain ⟨t, h4, e4, o4, -, v4, r4⟩ := print_ok hA g false (some (.obj (i ++ l))) o3
    obtain ⟨h5, e5, o5, s5⟩ := freeAll_ok (h := h4) (b := t.toList ++ lost) cs' (o4.perm (by reorder))
    have hm : ∀ a, t = some a → h5.mem a = some (.str (Json.print false 0 (.obj (i ++ l)))) := by
      intro a ha
      obtain ⟨w, hw, hm⟩ := v4 a ha
      cases hw
      rw [s5 a (by simp [ha]), hm]
    have pi : ∀ k, PartM l k → PartM (i ++ l) ((c!"id", .str p.id) :: k) := by
      intro k pk
      rcases p2 with rfl | rfl
      · exact .skip pk
      · exact .keep (.refl _) pk
    refine ⟨t, lost, h5, ?_, o5, fun a ha => ⟨_, ?_, hm a ha⟩, fun hr => ?_⟩
    · simp only [content, create, M.bind, e1, e2, Option.bind_some, Option.getD_some, e3, e4, e5]; rfl
    · have same : ∀ k : List (Bytes × Json), PartM k k := by
        intro k
        induction k with
        | nil => exact .nil _
        | cons a k ih => exact .keep (.refl _) ih
      rcases p3 with rfl | rfl | rfl
      · exact .inl (.obj (pi _ (.nil _)))
      · exact .inl (.obj (pi _ (same _)))
      · exact .inr (.obj (pi _ (same _)))
    · obtain ⟨hl, hlost⟩ := g3 hr
      refine ⟨hlost, ?_⟩
      cases t with
      | none => exact absurd (r4 rfl rfl) hr
      | some a => exact ⟨a, rfl, by rw [hm a rfl, g2 hr, hl]; rfl⟩

/-- **C184 (part).** Creating a response never does anything undefined. If no memory was refused, the response says exactly what the caller
passed, and the memory is as before. Otherwise an error is reported or a response is sent that says part of it, a result that is JSON
being possibly sent as a string. Missing: see `C184_refuted`; some memory may be lost. -/
theorem C184_partial {A : Alloc} (hA : Fresh A) (g : Bytes → Nat) (E : Nip47.Env) (r : Bytes → Json) (now : Int) (nonce aux : Option Bytes)
    (p : Nip46.Response) (sk peer : Bytes) (h : Heap) :
    ∃ x h' lost, respond A g E r now nonce aux p sk peer h = some (x, h') ∧ Owned h.mem h'.mem lost ∧
      (¬ Refused A h.mem → x = sent E now nonce aux sk peer (Json.print false 0 (says p (value r))) ∧
        x = Nip46.createResponse E r now nonce aux p sk peer ∧ h'.mem = h.mem) ∧
      ((x = .err .memory ∧ Refused A h.mem) ∨
        ∃ v, (Part v (says p (value r)) ∨ Part v (says p .str)) ∧ x = sent E now nonce aux sk peer (Json.print false 0 v)) := by
  obtain ⟨t, lost, h1, e1, o1, v1, g1⟩ := content_ok hA g r p h
  cases t with
  | none =>
    refine ⟨.err .memory, h1, lost, by simp only [respond, M.bind, e1, Option.bind_some]; rfl, o1, fun hr => ?_, .inl ⟨rfl, ?_⟩⟩
    · obtain ⟨-, a, ha, -⟩ := g1 hr; cases ha
    · exact Classical.byContradiction fun hr => by obtain ⟨-, a, ha, -⟩ := g1 hr; cases ha
  | some a =>
    obtain ⟨v, pv, hm⟩ := v1 a rfl
    obtain ⟨h2, e2, o2, -⟩ := freeP (p := some a) (b := lost) o1
    refine ⟨sent E now nonce aux sk peer (Json.print false 0 v), h2, lost, ?_, o2, fun hr => ?_, .inr ⟨v, pv, rfl⟩⟩
    · simp only [respond, M.bind, e1, Tree.Props.loadStr_at hm, e2, Option.bind_some]; rfl
    · obtain ⟨hl, b, hb, hw⟩ := g1 hr
      cases hb
      rw [hw] at hm
      simp only [Option.some.injEq, Obj.str.injEq] at hm
      subst hl
      exact ⟨by rw [hm], by rw [← hm, says_value]; rfl, o2.eq⟩

/-- A refusal of the signer. -/
def refusal : Nip46.Response := ⟨c!"7", none, some (c!"no")⟩

/-- A result that is JSON. -/
def reply : Nip46.Response := ⟨c!"7", some (c!"{\"a\":1}"), none⟩

example : says refusal (value .num) = .obj [(c!"id", .str (c!"7")), (c!"error", .str (c!"no"))] ∧
    says reply (value .num) = .obj [(c!"id", .str (c!"7")), (c!"result", .obj [(c!"a", .num (c!"1"))])] := by decide +kernel

/-- What is sent, from the text in the memory. -/
theorem run {A : Alloc} {p : Nip46.Response} {s : Bytes}
    (e : ((content A (fun _ => 0) .num p Tree.Props.empty).bind fun r => r.1.bind fun a => r.2.mem a) = some (.str s))
    (E : Nip47.Env) (now : Int) (nonce aux : Option Bytes) (sk peer : Bytes) :
    (respond A (fun _ => 0) E .num now nonce aux p sk peer Tree.Props.empty).map (·.1) = some (sent E now nonce aux sk peer s) := by
  cases hc : content A (fun _ => 0) .num p Tree.Props.empty with
  | none => rw [hc] at e; cases e
  | some q =>
    obtain ⟨t, h⟩ := q
    cases t with
    | none => rw [hc] at e; cases e
    | some a =>
      rw [hc] at e
      have hm : h.mem a = some (.str s) := e
      simp [respond, M.bind, hc, Tree.Props.loadStr_at hm, free, hm, M.pure]

/-- C184 fails, whatever the keys and the cryptography: when a single allocation is refused, the signer's refusal is sent without the
error, or without the identifier; a result is sent as a string instead of the object it is; or it is left out, and memory is lost. In
each case the call does what it does for a response that says just this. -/
theorem C184_refuted : ∃ A B C D, (Fresh A ∧ Fresh B ∧ Fresh C ∧ Fresh D) ∧
    (∀ E now nonce aux sk peer,
      (respond A (fun _ => 0) E .num now nonce aux refusal sk peer Tree.Props.empty).map (·.1) =
        some (sent E now nonce aux sk peer (c!"{\"id\":\"7\"}")) ∧
      (respond B (fun _ => 0) E .num now nonce aux refusal sk peer Tree.Props.empty).map (·.1) =
        some (sent E now nonce aux sk peer (c!"{\"error\":\"no\"}")) ∧
      (respond C (fun _ => 0) E .num now nonce aux reply sk peer Tree.Props.empty).map (·.1) =
        some (sent E now nonce aux sk peer (c!"{\"id\":\"7\",\"result\":\"{\\\"a\\\":1}\"}")) ∧
      (respond D (fun _ => 0) E .num now nonce aux reply sk peer Tree.Props.empty).map (·.1) =
        some (sent E now nonce aux sk peer (c!"{\"id\":\"7\"}"))) ∧
    (content D (fun _ => 0) .num reply Tree.Props.empty).map (fun r => ((r.2.mem 104).isSome, r.1)) = some (true, some 107) :=
  ⟨Filter.Props.failAt 5, Filter.Props.failAt 1, Filter.Props.failAt 4, Filter.Props.failAt 5,
    ⟨Ev.Props.failAt_fresh 5, Ev.Props.failAt_fresh 1, Ev.Props.failAt_fresh 4, Ev.Props.failAt_fresh 5⟩,
    fun E now nonce aux sk peer => ⟨run (by decide +kernel) E now nonce aux sk peer, run (by decide +kernel) E now nonce aux sk peer,
      run (by decide +kernel) E now nonce aux sk peer, run (by decide +kernel) E now nonce aux sk peer⟩, by decide +kernel⟩

end Nostr.Own.Response.Props
