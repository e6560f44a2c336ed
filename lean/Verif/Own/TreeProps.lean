import Verif.Own.TreeLemmas
import Verif.Own.EvProps
import Verif.Event.Props
import Verif.Event.Spec

/-!
# Properties C176 - C178: texts written with cJSON when there is no memory

`Part v j` (in `Verif/Own/TreeLemmas.lean`) says that `v` is the value `j` with some elements and members left out, on any level.
`Owned before after blocks` says that the memory afterwards is the memory before and `blocks`.
-/

namespace Nostr.Own.Tree.Props
open Nostr Nostr.Heap Nostr.Own Nostr.Own.Tree Nostr.Json

/-! ## C176: the id of an event -/

/-- The memory after a call that leaves nothing. -/
theorem back {m m' : Mem} (o : Owned m m' []) : m' = m := o.eq

theorem serializeId_ok {A : Alloc} (hA : Fresh A) (N : Env) (e : Event.Event) {h0 : Mem} {h : Heap} (o : Owned h0 h.mem []) :
    ∃ t h' lost, serializeId A N e h = some (t, h') ∧ Owned h0 h'.mem (t.toList ++ lost) ∧
      (∀ a, t = some a → ∃ v, Part v (Event.idTree N.td N.fr e) ∧ h'.mem a = some (.str (Json.print false 0 v))) ∧
      (¬ Refused A h0 → lost = [] ∧ ∃ a, t = some a ∧ h'.mem a = some (.str (Json.print false 0 (Event.idTree N.td N.fr e)))) := by
  obtain ⟨t, h', lost, e1, o1, p1, -, g1⟩ := write_ok hA N.g never false false (Event.idTree N.td N.fr e) rfl o
  exact ⟨t, h', lost, e1, by simpa using o1, p1, g1⟩

theorem loadStr_at {h : Heap} {a : Nat} {s : Bytes} (hm : h.mem a = some (.str s)) : loadStr a h = some (s, h) := by
  simp [loadStr, load, M.bind, M.pure, hm]

theorem computeId_ok {A : Alloc} (hA : Fresh A) (H : Bytes → Bytes) (N : Env) (e : Event.Event) {h0 : Mem} {h : Heap} (o : Owned h0 h.mem []) :
    ∃ r h' lost, computeId H (serializeId A N e) e h = some (r, h') ∧ Owned h0 h'.mem lost ∧
      ((r = (some .memory, e) ∧ Refused A h0) ∨ ∃ v, Part v (Event.idTree N.td N.fr e) ∧ r = (none, { e with id := H (Json.print false 0 v) })) ∧
      (¬ Refused A h0 → r = (none, { e with id := H (Json.print false 0 (Event.idTree N.td N.fr e)) }) ∧ lost = []) := by
  obtain ⟨t, h1, lost, e1, o1, p1, g1⟩ := serializeId_ok hA N e o
  cases t with
  | none =>
    refine ⟨(some .memory, e), h1, lost, by simp only [computeId, M.bind, e1, Option.bind_some]; rfl, o1, .inl ⟨rfl, ?_⟩, ?_⟩
    · exact Classical.byContradiction fun hr => by obtain ⟨-, a, ha, -⟩ := g1 hr; cases ha
    · intro hr; obtain ⟨-, a, ha, -⟩ := g1 hr; cases ha
  | some a =>
    obtain ⟨v, pv, hm⟩ := p1 a rfl
    obtain ⟨h2, e2, o2, -⟩ := freeP (p := some a) (b := lost) o1
    refine ⟨(none, { e with id := H (Json.print false 0 v) }), h2, lost, ?_, o2, .inr ⟨v, pv, rfl⟩, fun hr => ?_⟩
    · simp only [computeId, M.bind, e1, loadStr_at hm, e2, Option.bind_some]; rfl
    · obtain ⟨hl, b, hb, hw⟩ := g1 hr
      cases hb
      rw [hw] at hm
      simp only [Option.some.injEq, Obj.str.injEq] at hm
      exact ⟨by rw [hm], hl⟩

/-- **C176** (build with cJSON). Computing an event's id never does anything undefined, and changes nothing but the id. If no memory was
refused, it succeeds, the id is the hash of the event's text and the memory is as before. Missing: if memory was refused the call may
report success with the hash of a text in which elements are missing (`C176_refuted`), and memory may be lost. -/
theorem C176_id_partial {A : Alloc} (hA : Fresh A) (C : Event.Crypto) (N : Env) (e : Event.Event) (h : Heap) :
    ∃ r h' lost, computeId C.sha256 (serializeId A N e) e h = some (r, h') ∧ Owned h.mem h'.mem lost ∧
      (r.1 = none ∨ r = (some .memory, e)) ∧
      (r.1 = none → ∃ v, Part v (Event.idTree N.td N.fr e) ∧ r.2 = { e with id := C.sha256 (Json.print false 0 v) }) ∧
      (¬ Refused A h.mem → r.1 = none ∧ Event.computeId C (.cjson N.td N.fr) e = .ok r.2 ∧ h'.mem = h.mem) := by
  obtain ⟨r, h', lost, e1, o1, c1, g1⟩ := computeId_ok hA C.sha256 N e (Owned.nil h.mem)
  refine ⟨r, h', lost, e1, o1, ?_, ?_, fun hr => ?_⟩
  · rcases c1 with ⟨c, -⟩ | ⟨v, -, c⟩
    · exact .inr c
    · exact .inl (by rw [c])
  · intro hn
    rcases c1 with ⟨c, -⟩ | ⟨v, pv, c⟩
    · rw [c] at hn; cases hn
    · exact ⟨v, pv, by rw [c]⟩
  · obtain ⟨a, b⟩ := g1 hr
    subst b
    exact ⟨by rw [a], by rw [a]; rfl, o1.eq⟩

theorem copies_ok {A : Alloc} (hA : Fresh A) : ∀ (l : List Bytes) {h0 : Mem} {h : Heap} {own : List Nat}, Owned h0 h.mem own →
    ∃ b h', copies A l h = some (b, h') ∧ Owned h0 h'.mem own ∧ (∀ x ∈ own, h'.mem x = h.mem x) ∧ (b = false → Refused A h0)
  | [], h0, h, own, o => ⟨true, h, rfl, o, fun _ _ => rfl, by simp⟩
  | v :: l, h0, h, own, o => by
    rcases allocP hA o (.str (escape v)) with ⟨h1, e1, m1, rf⟩ | ⟨c, h1, e1, -, o1, s1⟩
    · exact ⟨false, h1, by simp only [copies, escaped, M.bind, e1, Option.bind_some]; rfl, by rw [m1]; exact o, fun x _ => by rw [m1], fun _ => rf⟩
    · obtain ⟨h2, e2, o2, s2⟩ := freeP (p := some c) (b := own) o1
      obtain ⟨b, h3, e3, o3, s3, g3⟩ := copies_ok hA l o2
      exact ⟨b, h3, by simp only [copies, escaped, M.bind, e1, e2, Option.bind_some]; exact e3, o3, fun x hx => by rw [s3 x hx, s2 x hx, s1 x hx], g3⟩

/-- **C176** (build without cJSON, at most 400 tags of control characters only: with more, the text may not fit, see C80). The id is right or an error is reported,
the event being unchanged, and the memory is as before. Missing: if there is no memory for the very first copy, that of the content, the
program crashes (`C176_plain_refuted`). -/
theorem C176_plain_partial {A : Alloc} (hA : Fresh A) (C : Event.Crypto) {e : Event.Event} (he : Event.Spec.WF e) (hn : Event.Spec.thinTags e ≤ 400) (h : Heap)
    (hc : A h.mem h.tick ≠ none) :
    ∃ r h', computeId C.sha256 (serializeIdPlain A e) e h = some (r, h') ∧ h'.mem = h.mem ∧
      ((r.1 = none ∧ Event.computeId C .plain e = .ok r.2) ∨ (r = (some .memory, e) ∧ Refused A h.mem)) := by
  obtain ⟨t, hs⟩ : ∃ t, Event.serializePlain e = .ok t := ⟨_, Event.Props.serialize_inRange (b := .plain) he hn⟩
  have hE' : Event.computeId C .plain e = .ok { e with id := C.sha256 t } := by
    unfold Event.computeId Event.serialize
    simp only [hs]; rfl
  rcases Filter.Own.alloc_cases hA (.str (escape e.text)) h with ⟨hf, -⟩ | ⟨c, ec, hfr⟩
  · exact absurd hf hc
  rcases allocP hA (Owned.nil h.mem) (.str (escape e.text)) with ⟨h1, e1, -, rf⟩ | ⟨c, h1, e1, -, o1, -⟩
  · rw [ec] at e1; cases e1
  rcases allocP hA o1 (.str []) with ⟨h2, e2, m2, rf⟩ | ⟨r, h2, e2, -, o2, -⟩
  · obtain ⟨h3, e3, o3, -⟩ := freeP (h := h2) (p := some c) (b := []) (by rw [m2]; exact o1)
    exact ⟨(some .memory, e), h3, by simp only [computeId, serializeIdPlain, escaped, M.bind, e1, e2, e3, Option.bind_some]; rfl, o3.eq, .inr ⟨rfl, rf⟩⟩
  obtain ⟨b, h3, e3, o3, -, g3⟩ := copies_ok hA e.tags.flatten o2
  cases b with
  | false =>
    obtain ⟨h4, e4, o4, -⟩ := freeP (h := h3) (p := some r) (b := [c]) o3
    obtain ⟨h5, e5, o5, -⟩ := freeP (h := h4) (p := some c) (b := []) o4
    refine ⟨(some .memory, e), h5, ?_, o5.eq, .inr ⟨rfl, g3 rfl⟩⟩
    simp only [computeId, serializeIdPlain, escaped, M.bind, e1, e2, e3, e4, e5, Option.bind_some, Bool.false_eq_true, if_false]; rfl
  | true =>
    have hl : h3.mem r ≠ none := o3.live r (by simp)
    have es : store r (.str t) h3 = some ((), ⟨upd h3.mem r (some (.str t)), h3.tick⟩) := by
      unfold store
      cases hm : h3.mem r with
      | none => exact absurd hm hl
      | some v => rfl
    have o4 : Owned h.mem (upd h3.mem r (some (.str t))) [r, c] := o3.write (by simp) _
    obtain ⟨h5, e5, o5, s5⟩ := freeP (h := ⟨upd h3.mem r (some (.str t)), h3.tick⟩) (p := some c) (b := [r]) (o4.perm (by simp only [Option.toList]; reorder))
    have hv : h5.mem r = some (.str t) := by rw [s5 r (by simp)]; simp
    obtain ⟨h6, e6, o6, -⟩ := freeP (h := h5) (p := some r) (b := []) o5
    refine ⟨(none, { e with id := C.sha256 t }), h6, ?_, o6.eq, .inl ⟨rfl, hE'⟩⟩
    simp only [computeId, serializeIdPlain, escaped, M.bind, e1, e2, e3, hs, es, e5, Option.bind_some, if_true, M.pure, loadStr_at hv, e6]

/-- Numbers as they are written, and a printer whose buffer grows once. -/
def env : Env := ⟨fun n => n, Num.decInt, fun _ => 1⟩

/-- No memory is in use. -/
def empty : Heap := ⟨fun _ => none, 0⟩

/-- A note with a tag. -/
def note : Event.Event :=
  { Event.zero with pubkey := List.replicate 32 1, tags := [[c!"e", c!"x"]], content := some (c!"hi"), createdAt := 5, kind := 1 }

example : ∃ A, Fresh A ∧ ¬ Refused A empty.mem := ⟨generous, generous_fresh, generous_never (live := []) (fun _ _ => rfl)⟩

/-- The id is computed and nothing else changes. -/
example : (computeId (fun s => s) (serializeId (Filter.Props.failAt 99) env note) note empty).map (·.1) =
    some (none, { note with id := c!"[0,\"0101010101010101010101010101010101010101010101010101010101010101\",5,1,[[\"e\",\"x\"]],\"hi\"]" }) := by
  decide +kernel

/-- **C176 fails.** If the 14th allocation is refused, success is reported and what is hashed lacks the content; if the 7th, it lacks the
tags, and memory is lost. -/
theorem C176_refuted : ∃ A B, Fresh A ∧ Fresh B ∧
    (computeId (fun s => s) (serializeId A env note) note empty).map (·.1) =
      some (none, { note with id := c!"[0,\"0101010101010101010101010101010101010101010101010101010101010101\",5,1,[[\"e\",\"x\"]]]" }) ∧
    (computeId (fun s => s) (serializeId B env note) note empty).map (fun r => (r.1, (r.2.mem 107).isSome)) =
      some ((none, { note with id := c!"[0,\"0101010101010101010101010101010101010101010101010101010101010101\",5,1,\"hi\"]" }), true) :=
  ⟨Filter.Props.failAt 13, Filter.Props.failAt 6, Ev.Props.failAt_fresh 13, Ev.Props.failAt_fresh 6, by decide +kernel, by decide +kernel⟩

/-- Without cJSON the program crashes if there is no memory for the copy of the content. -/
theorem C176_plain_refuted : ∃ A, Fresh A ∧ computeId (fun s => s) (serializeIdPlain A note) note empty = none :=
  ⟨Filter.Props.failAt 0, Ev.Props.failAt_fresh 0, by simp [computeId, serializeIdPlain, escaped, M.bind, alloc, Filter.Props.failAt, empty]⟩

example : Event.Spec.WF note ∧ Event.Spec.thinTags note ≤ 400 ∧ Filter.Props.failAt 3 empty.mem empty.tick ≠ none :=
  ⟨by constructor <;> first | rfl | decide, by decide, by decide⟩

/-- **C176**, signing and verifying (build with cJSON): if no memory was refused, both do what they do with ample memory, and leave the
memory as it was. Missing: see `C176_sign_refuted`. -/
theorem C176_sign_partial {A : Alloc} (hA : Fresh A) (C : Event.Crypto) (N : Env) (rand : Option Bytes) (sk : Bytes) (e : Event.Event) (h : Heap) :
    (∃ r h' lost, sign C (serializeId A N) rand sk e h = some (r, h') ∧ Owned h.mem h'.mem lost ∧
      (¬ Refused A h.mem → r = Event.sign C (.cjson N.td N.fr) rand sk e ∧ h'.mem = h.mem)) ∧
    ∃ r h' lost, verify C (serializeId A N) e h = some (r, h') ∧ Owned h.mem h'.mem lost ∧
      (¬ Refused A h.mem → r = Event.verify C (.cjson N.td N.fr) e ∧ h'.mem = h.mem) := by
  constructor
  · unfold sign Event.sign
    cases C.pubOf sk with
    | none => exact ⟨_, h, [], rfl, Owned.nil _, fun _ => ⟨rfl, rfl⟩⟩
    | some pk =>
      obtain ⟨r, h', lost, e1, o1, -, g1⟩ := computeId_ok hA C.sha256 N { e with pubkey := pk } (Owned.nil h.mem)
      obtain ⟨r1, r2⟩ := r
      cases r1 with
      | some x =>
        refine ⟨.err x, h', lost, by simp only [M.bind, e1, Option.bind_some]; rfl, o1, fun hr => ?_⟩
        have := (g1 hr).1; simp at this
      | none =>
        refine ⟨_, h', lost, by simp only [M.bind, e1, Option.bind_some]; rfl, o1, fun hr => ?_⟩
        obtain ⟨a, b⟩ := g1 hr
        subst b
        cases a
        exact ⟨rfl, o1.eq⟩
  · unfold verify Event.verify
    obtain ⟨r, h', lost, e1, o1, -, g1⟩ := computeId_ok hA C.sha256 N e (Owned.nil h.mem)
    obtain ⟨r1, r2⟩ := r
    cases r1 with
    | some x =>
      refine ⟨.err x, h', lost, by simp only [M.bind, e1, Option.bind_some]; rfl, o1, fun hr => ?_⟩
      have := (g1 hr).1; simp at this
    | none =>
      refine ⟨_, h', lost, by simp only [M.bind, e1, Option.bind_some]; rfl, o1, fun hr => ?_⟩
      obtain ⟨a, b⟩ := g1 hr
      subst b
      cases a
      exact ⟨rfl, o1.eq⟩

/-- A toy for the curve: the "hash" is the text itself, and a signature is the key with what is signed. -/
def toy : Event.Crypto := ⟨fun s => s, fun sk => some sk, fun sk m _ => some (sk ++ m), fun _ => true, fun pk m g => g == pk ++ m⟩

/-- An event signed with success that nobody accepts; and, whatever the hash, one that is accepted only by those who lack memory. -/
theorem C176_sign_refuted : ∃ A, Fresh A ∧ ∃ e' h',
    sign toy (serializeId A env) (some []) (List.replicate 32 1) note empty = some (.ok e', h') ∧
    Event.verify toy (.cjson env.td env.fr) e' = .err .invalidEvent ∧
    (verify toy (serializeId A env) e' empty).map (·.1) = some (.ok ()) := by
  have q : (sign toy (serializeId (Filter.Props.failAt 13) env) (some []) (List.replicate 32 1) note empty).map (fun r => match r.1 with
      | .ok e' => decide (Event.verify toy (.cjson env.td env.fr) e' = .err .invalidEvent ∧
          (verify toy (serializeId (Filter.Props.failAt 13) env) e' empty).map (·.1) = some (.ok ()))
      | _ => false) = some true := by decide +kernel
  cases hs : sign toy (serializeId (Filter.Props.failAt 13) env) (some []) (List.replicate 32 1) note empty with
  | none => rw [hs] at q; cases q
  | some r =>
    obtain ⟨r, h'⟩ := r
    rw [hs] at q
    cases r with
    | ok e' =>
      simp only [Option.map_some, Option.some.injEq, decide_eq_true_eq] at q
      exact ⟨_, Ev.Props.failAt_fresh 13, e', h', hs, q.1, q.2⟩
    | err x => cases q
    | ub => cases q

/-! ## C177: a text is written completely or not at all -/

/-- The texts. -/
inductive Doc
  | event (e : Event.Event)
  | canonical (e : Event.Event)
  | limitation (l : Nip11.Limitation)
  | info (i : Nip11.Info)
  | message (m : Msg.RelayMsg)
  | payInvoice (invoice : Bytes) (amount : Option Nat)
  | makeInvoice (amount : Nat) (descr hash : Option Bytes) (expiry : Option Nat)
  | listTx (fromT untilT : Option Int) (limit offset : Option Nat) (unpaid : Option Bool) (type : Option Bytes)
  | lookupInvoice (hash invoice : Option Bytes)
  | payKeysend (amount : Nat) (pubkey : Bytes) (preimage : Option Bytes) (tlv : List Bytes)
  | multiPay (l : List Nip47.Pay)

/-- The function that writes it. -/
def Doc.code (A : Alloc) (N : Env) : Doc → M (Option Nat)
  | .event e => Tree.eventJson A N e
  | .canonical e => Tree.canonicalText A N e
  | .limitation l => Tree.limitationText A N l
  | .info i => Tree.infoText A N i
  | .message m => Tree.otherMsg A N m
  | .payInvoice i a => Tree.payInvoice A N i a
  | .makeInvoice a d h x => Tree.makeInvoice A N a d h x
  | .listTx f u l o p t => Tree.listTx A N f u l o p t
  | .lookupInvoice h i => Tree.lookupInvoice A N h i
  | .payKeysend a k p t => Tree.payKeysend A N a k p t
  | .multiPay l => Tree.multiPay A N l

/-- The text it is to write: what the function writes with ample memory, by the models of the functions' values. EVENT messages are in
`C177_event_partial`. -/
def Doc.text (N : Env) : Doc → Res Bytes
  | .event e => Event.toJson (.cjson N.td N.fr) e
  | .canonical e => Event.serialize (.cjson N.td N.fr) e
  | .limitation l => .ok (Json.print false 0 (Nip11.limTree N.td N.fr l))
  | .info i => .ok (Json.print false 0 (Nip11.infoTree N.td N.fr i))
  | .message (.event _ _) => .err .notSupported
  | .message m => Msg.msgTree N.td N.fr (fun t => .num t) m >>= fun j => .ok (Json.print false 0 j)
  | .payInvoice i a => .ok (Nip47.payInvoice N.td N.fr i a)
  | .makeInvoice a d h x => Nip47.makeInvoice N.td N.fr a d h x
  | .listTx f u l o p t => .ok (Nip47.listTx N.td N.fr f u l o p t)
  | .lookupInvoice h i => Nip47.lookupInvoice h i
  | .payKeysend a k p t => Nip47.payKeysend N.td N.fr a k p t
  | .multiPay l => Nip47.multiPay N.td N.fr l

/-- Texts without an array inside, and without an object in an object. -/
def Doc.simple : Doc → Prop
  | .limitation _ => True
  | .message _ => True
  | .payInvoice _ _ => True
  | .makeInvoice _ _ _ _ => True
  | .listTx _ _ _ _ _ _ => True
  | .lookupInvoice _ _ => True
  | _ => False

/-- Every function builds a tree whose root it looks at. -/
theorem code_write (A : Alloc) (N : Env) (d : Doc) {s : Bytes} (hd : d.text N = .ok s) : ∃ chk fmt j, d.code A N = write A N.g chk true fmt j ∧ tree j = true ∧
    s = Json.print fmt 0 j ∧ (d.simple → flat j = true) := by
  have strs : ∀ k o, (Nip47.strField k o).all (fun p => scalar p.2) = true := by intro k o; cases o <;> rfl
  have nums : ∀ k o, (Nip47.numField N.td N.fr k o).all (fun p => scalar p.2) = true := by intro k o; cases o <;> rfl
  have bools : ∀ k o, (Nip47.boolField k o).all (fun p => scalar p.2) = true := by
    intro k o; cases o with
    | none => rfl
    | some b => cases b <;> rfl
  cases d with
  | event e => cases hd; exact ⟨_, _, _, rfl, rfl, rfl, False.elim⟩
  | canonical e => cases hd; exact ⟨_, _, _, rfl, rfl, rfl, False.elim⟩
  | limitation l =>
    cases hd
    refine ⟨_, _, _, rfl, rfl, rfl, fun _ => ?_⟩
    simp only [Nip11.limTree, flat, List.all_append, Nip11.posM, Nip11.boolM, List.all_cons, List.all_nil]
    simp only [apply_ite (fun l : List (Bytes × Json) => l.all fun p => scalar p.2), List.all_cons, List.all_nil, Nip11.numJ, scalar]
    cases l.authRequired <;> cases l.paymentRequired <;> cases l.restrictedWrites <;> simp
  | info i => cases hd; exact ⟨_, _, _, rfl, rfl, rfl, False.elim⟩
  | message m =>
    cases m with
    | event s e => cases hd
    | ok id b m => cases hd; cases b <;> exact ⟨_, _, _, rfl, rfl, rfl, fun _ => rfl⟩
    | count q n a => cases hd; exact ⟨_, _, _, rfl, rfl, rfl, fun _ => by cases a <;> rfl⟩
    | _ => cases hd; exact ⟨_, _, _, rfl, rfl, rfl, fun _ => rfl⟩
  | payInvoice i a => cases hd; exact ⟨_, _, _, rfl, rfl, rfl, fun _ => by simp only [flat, List.all_cons, nums]; rfl⟩
  | makeInvoice a x h y =>
    simp only [Doc.text, Nip47.makeInvoice] at hd
    split at hd
    · cases hd
    · cases hd; exact ⟨_, _, _, rfl, rfl, rfl, fun _ => by simp only [flat, List.all_cons, List.all_append, nums, strs]; rfl⟩
  | listTx f u l o p t => cases hd; exact ⟨_, _, _, rfl, rfl, rfl, fun _ => by simp only [flat, List.all_append, nums, strs, bools]; rfl⟩
  | lookupInvoice h i =>
    simp only [Doc.text, Nip47.lookupInvoice] at hd
    split at hd
    · cases hd
    · cases hd; exact ⟨_, _, _, rfl, rfl, rfl, fun _ => by simp only [flat, List.all_append, strs]; rfl⟩
  | payKeysend a k p t =>
    simp only [Doc.text, Nip47.payKeysend] at hd
    split at hd
    · cases hd
    · cases hd; exact ⟨_, _, _, rfl, rfl, rfl, False.elim⟩
  | multiPay l =>
    simp only [Doc.text, Nip47.multiPay] at hd
    split at hd
    · cases hd
    · cases hd; exact ⟨_, _, _, rfl, rfl, rfl, False.elim⟩

/-- **C177.** Writing a text never does anything undefined. If no memory was refused, it is the whole text, in one new block, and nothing
else has changed. What is written otherwise, if anything, is a text of a part of what was to be written. Missing: that this part is the
whole (`C177_refuted`). -/
theorem C177_partial {A : Alloc} (hA : Fresh A) (N : Env) (d : Doc) {s : Bytes} (hd : d.text N = .ok s) (h : Heap) :
    ∃ t h' lost, d.code A N h = some (t, h') ∧ Owned h.mem h'.mem (t.toList ++ lost) ∧
      (∀ a, t = some a → ∃ fmt v j, s = Json.print fmt 0 j ∧ Part v j ∧ h'.mem a = some (.str (Json.print fmt 0 v))) ∧
      (¬ Refused A h.mem → ∃ a, t = some a ∧ h.mem a = none ∧ h'.mem = upd h.mem a (some (.str s))) := by
  obtain ⟨chk, fmt, j, e, ht, hs, -⟩ := code_write A N d hd
  obtain ⟨t, h', lost, e1, o1, p1, -, g1⟩ := write_ok hA N.g chk true fmt j ht (Owned.nil h.mem)
  refine ⟨t, h', lost, by rw [e]; exact e1, by simpa using o1, ?_, ?_⟩
  · intro a ha
    obtain ⟨v, pv, hv⟩ := p1 a ha
    exact ⟨fmt, v, j, hs, pv, hv⟩
  · intro hr
    obtain ⟨hl, a, ha, hv⟩ := g1 hr
    subst hl ha hs
    refine ⟨a, rfl, o1.fresh a (by simp), funext fun x => ?_⟩
    by_cases hx : x = a
    · subst hx; simp [hv]
    · rw [upd_other _ _ hx]
      exact o1.same x (by simp [hx])

theorem doc_ok {A : Alloc} (hA : Fresh A) (N : Env) (d : Doc) {s : Bytes} (hd : d.text N = .ok s) {h0 : Mem} {h : Heap} {own : List Nat} (o : Owned h0 h.mem own) :
    ∃ t h' lost, d.code A N h = some (t, h') ∧ Owned h0 h'.mem (t.toList ++ lost ++ own) ∧
      (∀ a, t = some a → ∃ w, (∃ fmt v j, s = Json.print fmt 0 j ∧ Part v j ∧ w = Json.print fmt 0 v) ∧ h'.mem a = some (.str w)) ∧ (d.simple → lost = []) ∧
      (¬ Refused A h0 → lost = [] ∧ ∃ a, t = some a ∧ h'.mem a = some (.str s)) := by
  obtain ⟨chk, fmt, j, e, ht, hs, fl⟩ := code_write A N d hd
  obtain ⟨t, h', lost, e1, o1, p1, f1, g1⟩ := write_ok hA N.g chk true fmt j ht o
  refine ⟨t, h', lost, by rw [e]; exact e1, o1, fun a ha => ?_, fun h => f1 (fl h) rfl, fun hr => ?_⟩
  · obtain ⟨v, pv, hv⟩ := p1 a ha
    exact ⟨_, ⟨fmt, v, j, hs, pv, rfl⟩, hv⟩
  · rw [hs]; exact g1 hr

/-- **C177** for the functions that write into the caller's buffer (`nostr_relay_msg_serialize`, `nostr_event_serialize`, …): what is
written fits, it is a text of a part of what was to be written, and the whole if no memory was refused. The memory is then as before, and
for texts without arrays inside it always is. -/
theorem C177_buffer_partial {A : Alloc} (hA : Fresh A) (N : Env) (d : Doc) {s : Bytes} (hd : d.text N = .ok s) (size : Nat) (h : Heap) :
    ∃ r h' lost, intoBuf (d.code A N) size h = some (r, h') ∧ Owned h.mem h'.mem lost ∧
      (∀ w, r = .ok w → w.length < size ∧ ∃ fmt v j, s = Json.print fmt 0 j ∧ Part v j ∧ w = Json.print fmt 0 v) ∧
      (d.simple → h'.mem = h.mem) ∧
      (¬ Refused A h.mem → h'.mem = h.mem ∧ r = if s.length ≥ size then .err (.relay .bufferTooSmall) else .ok s) := by
  obtain ⟨t, h1, lost, e1, o1, p1, f1, g1⟩ := doc_ok hA N d hd (Owned.nil h.mem)
  rw [List.append_nil] at o1
  cases t with
  | none =>
    refine ⟨.err (.relay .memory), h1, lost, by simp only [intoBuf, M.bind, e1, Option.bind_some]; rfl, o1, by simp, fun hs => ?_, fun hr => ?_⟩
    · have := f1 hs; subst this; exact o1.eq
    · obtain ⟨-, a, ha, -⟩ := g1 hr; cases ha
  | some a =>
    obtain ⟨w, hp, hm⟩ := p1 a rfl
    obtain ⟨h2, e2, o2, -⟩ := freeP (p := some a) (b := lost) o1
    refine ⟨if w.length ≥ size then .err (.relay .bufferTooSmall) else .ok w, h2, lost, by
      simp only [intoBuf, M.bind, e1, loadStr_at hm, e2, Option.bind_some]; rfl, o2, ?_, fun hs => ?_, fun hr => ?_⟩
    · intro w' hw
      split at hw
      · cases hw
      · cases hw; exact ⟨by omega, hp⟩
    · have := f1 hs; subst this; exact o2.eq
    · obtain ⟨hl, b, hb, hv⟩ := g1 hr
      cases hb
      rw [hv] at hm
      simp only [Option.some.injEq, Obj.str.injEq] at hm
      subst hl hm
      exact ⟨o2.eq, rfl⟩

theorem PartL.rfl : ∀ l, PartL l l
  | [] => .nil _
  | j :: l => .keep (.refl j) (PartL.rfl l)

theorem Part.arr_inv {v : Json} {k : List Json} (p : Part v (.arr k)) : ∃ l, v = .arr l ∧ PartL l k := by
  cases p with
  | refl => exact ⟨k, Eq.refl _, PartL.rfl k⟩
  | arr p => exact ⟨_, Eq.refl _, p⟩

theorem eventMsg_ok {A : Alloc} (hA : Fresh A) (N : Env) (r : Bytes → Json) (sub : Bytes) (e : Event.Event) {h0 : Mem} {h : Heap} (o : Owned h0 h.mem []) :
    ∃ t h' lost, eventMsg A N r sub e h = some (t, h') ∧ Owned h0 h'.mem (t.toList ++ lost) ∧
      (∀ a, t = some a → ∃ w, (∃ l v j, PartL l [.str (c!"EVENT"), .str sub] ∧ Part v (Event.toTree N.td N.fr e) ∧
        Json.parse (Json.print true 0 v) = some j ∧ w = Json.print false 0 (.arr (l ++ [Json.mapNum r j]))) ∧ h'.mem a = some (.str w)) ∧
      (¬ Refused A h0 → lost = [] ∧ ((t = none ∧ Json.parse (Json.print true 0 (Event.toTree N.td N.fr e)) = none) ∨
        ∃ a j, t = some a ∧ Json.parse (Json.print true 0 (Event.toTree N.td N.fr e)) = some j ∧
          h'.mem a = some (.str (Json.print false 0 (.arr [.str (c!"EVENT"), .str sub, Json.mapNum r j]))))) := by
  obtain ⟨q, h1, lost, e1, o1, p1, f1, g1⟩ := top_ok hA never true (.arr [.str (c!"EVENT"), .str sub]) rfl o
  have hl := f1 rfl rfl
  subst hl
  simp only [List.append_nil] at o1
  cases q with
  | abort => exact ⟨none, h1, [], by simp only [eventMsg, M.bind, e1, Option.bind_some]; rfl, o1, by simp, fun hr => by obtain ⟨⟨bs, hb⟩, -⟩ := g1 hr; cases hb⟩
  | null => exact ⟨none, h1, [], by simp only [eventMsg, M.bind, e1, Option.bind_some]; rfl, o1, by simp, fun hr => by obtain ⟨⟨bs, hb⟩, -⟩ := g1 hr; cases hb⟩
  | item cs v =>
    obtain ⟨l, hv, pl⟩ := Part.arr_inv (p1 cs v rfl)
    subst hv
    have gl : ¬ Refused A h0 → l = [.str (c!"EVENT"), .str sub] := by
      intro hr
      obtain ⟨⟨bs, hb⟩, -⟩ := g1 hr
      cases hb; rfl
    obtain ⟨t, h2, lost, e2, o2, p2, -, g2⟩ := write_ok hA N.g never true true (Event.toTree N.td N.fr e) rfl o1
    have e2' : eventJson A N e h1 = some (t, h2) := e2
    cases t with
    | none =>
      obtain ⟨h3, e3, o3, -⟩ := freeAll_ok (h := h2) (b := lost) cs (o2.perm (by simp only [Made.blocks, Option.toList]; reorder))
      refine ⟨none, h3, lost, by simp only [eventMsg, M.bind, e1, e2', e3, Option.bind_some]; rfl, o3, by simp, fun hr => ?_⟩
      obtain ⟨-, a, ha, -⟩ := g2 hr; cases ha
    | some a =>
      obtain ⟨v, pv, hm⟩ := p2 a rfl
      have gv : ¬ Refused A h0 → lost = [] ∧ Json.print true 0 v = Json.print true 0 (Event.toTree N.td N.fr e) := by
        intro hr
        obtain ⟨hl, b, hb, hw⟩ := g2 hr
        cases hb
        rw [hm] at hw
        simpa [hl] using hw
      cases hj : Json.parse (Json.print true 0 v) with
      | none =>
        obtain ⟨h3, e3, o3, -⟩ := freeP (h := h2) (p := some a) (b := cs ++ lost) (o2.perm (by simp only [Made.blocks, Option.toList]; reorder))
        obtain ⟨h4, e4, o4, -⟩ := freeAll_ok (h := h3) (b := lost) cs o3
        refine ⟨none, h4, lost, by simp only [eventMsg, M.bind, e1, e2', loadStr_at hm, hj, e3, e4, Option.bind_some]; rfl, o4, by simp, fun hr => ?_⟩
        obtain ⟨a1, a2⟩ := gv hr
        exact ⟨a1, .inl ⟨rfl, by rw [← a2]; exact hj⟩⟩
      | some j =>
        rcases allocP hA o2 (.str (Json.print true 0 v)) with ⟨h3, e3, m3, rf⟩ | ⟨c, h3, e3, -, o3, -⟩
        · obtain ⟨h4, e4, o4, -⟩ := freeP (h := h3) (p := some a) (b := cs ++ lost) (by rw [m3]; exact o2.perm (by simp only [Made.blocks, Option.toList]; reorder))
          obtain ⟨h5, e5, o5, -⟩ := freeAll_ok (h := h4) (b := lost) cs o4
          exact ⟨none, h5, lost, by simp only [eventMsg, M.bind, e1, e2', loadStr_at hm, hj, e3, e4, e5, Option.bind_some]; rfl, o5, by simp, fun hr => absurd rf hr⟩
        · obtain ⟨h4, e4, o4, -⟩ := freeP (h := h3) (p := some a) (b := c :: (cs ++ lost)) (o3.perm (by simp only [Made.blocks, Option.toList]; reorder))
          obtain ⟨t, h5, e5, o5, -, v5, r5⟩ := print_ok hA N.g false (some (.arr (l ++ [Json.mapNum r j]))) o4
          obtain ⟨h6, e6, o6, s6⟩ := freeAll_ok (h := h5) (b := t.toList ++ lost) (cs ++ [c]) (o5.perm (by reorder))
          have hw : ∀ b, t = some b → h6.mem b = some (.str (Json.print false 0 (.arr (l ++ [Json.mapNum r j])))) := by
            intro b hb
            obtain ⟨w, hw, hm'⟩ := v5 b hb
            cases hw
            rw [s6 b (by simp [hb]), hm']
          refine ⟨t, h6, lost, by simp only [eventMsg, M.bind, e1, e2', loadStr_at hm, hj, e3, e4, e5, e6, Option.bind_some]; rfl, o6,
            fun b hb => ⟨_, ⟨l, v, j, pl, pv, hj, rfl⟩, hw b hb⟩, fun hr => ?_⟩
          obtain ⟨a1, a2⟩ := gv hr
          cases t with
          | none => exact absurd (r5 rfl rfl) hr
          | some b =>
            have := hw b rfl
            rw [gl hr] at this
            exact ⟨a1, .inr ⟨b, j, rfl, by rw [← a2]; exact hj, this⟩⟩

/-- **C177**, EVENT messages: what is written fits, and is a message whose event is read from the text of a part of the event. If no memory
was refused, it is the message, as with ample memory, and the memory is as before. -/
theorem C177_event_partial {A : Alloc} (hA : Fresh A) (N : Env) (r : Bytes → Json) (sub : Bytes) (e : Event.Event) (size : Nat) (h : Heap) :
    ∃ q h' lost, message A N r (.event sub (some e)) size h = some (q, h') ∧ Owned h.mem h'.mem lost ∧
      (∀ w, q = .ok w → w.length < size ∧ ∃ l v j, PartL l [.str (c!"EVENT"), .str sub] ∧ Part v (Event.toTree N.td N.fr e) ∧
        Json.parse (Json.print true 0 v) = some j ∧ w = Json.print false 0 (.arr (l ++ [Json.mapNum r j]))) ∧
      (¬ Refused A h.mem → h'.mem = h.mem ∧ q = match Msg.msgTree N.td N.fr r (.event sub (some e)) with
        | .ok j => if (Json.print false 0 j).length ≥ size then .err (.relay .bufferTooSmall) else .ok (Json.print false 0 j)
        | .err x => .err x
        | .ub => .ub) := by
  obtain ⟨t, h1, lost, e1, o1, p1, g1⟩ := eventMsg_ok hA N r sub e (Owned.nil h.mem)
  cases t with
  | none =>
    refine ⟨.err (.relay .memory), h1, lost, by simp only [message, intoBuf, M.bind, e1, Option.bind_some]; rfl, o1, by simp, fun hr => ?_⟩
    rcases g1 hr with ⟨hl, ⟨-, hp⟩ | ⟨a, j, ha, -, -⟩⟩
    · subst hl
      refine ⟨o1.eq, ?_⟩
      simp only [Msg.msgTree, Event.toJson, hp]
    · cases ha
  | some a =>
    obtain ⟨w, hp, hm⟩ := p1 a rfl
    obtain ⟨h2, e2, o2, -⟩ := freeP (p := some a) (b := lost) o1
    refine ⟨if w.length ≥ size then .err (.relay .bufferTooSmall) else .ok w, h2, lost, by
      simp only [message, intoBuf, M.bind, e1, loadStr_at hm, e2, Option.bind_some]; rfl, o2, ?_, fun hr => ?_⟩
    · intro w' hw
      split at hw
      · cases hw
      · cases hw; exact ⟨by omega, hp⟩
    · rcases g1 hr with ⟨hl, ⟨ht, -⟩ | ⟨b, j, hb, hj, hv⟩⟩
      · cases ht
      · cases hb
        rw [hv] at hm
        simp only [Option.some.injEq, Obj.str.injEq] at hm
        subst hl hm
        refine ⟨o2.eq, ?_⟩
        simp only [Msg.msgTree, Event.toJson, hj]

/-! ## C178: writing a text leaves nothing behind -/

/-- **C178** for texts of one level. Whichever allocations are refused, there is a new block with the text or the memory is as before.
Missing: texts with arrays or objects inside (`C178_refuted`). -/
theorem C178_partial {A : Alloc} (hA : Fresh A) (N : Env) (d : Doc) {s : Bytes} (hd : d.text N = .ok s) (hf : d.simple) (h : Heap) :
    ∃ t h', d.code A N h = some (t, h') ∧
      match t with
      | none => h'.mem = h.mem
      | some a => h.mem a = none ∧ ∃ w, h'.mem = upd h.mem a (some (.str w)) := by
  obtain ⟨chk, fmt, j, e, ht, hs, fl⟩ := code_write A N d hd
  obtain ⟨t, h', lost, e1, o1, p1, f1, -⟩ := write_ok hA N.g chk true fmt j ht (Owned.nil h.mem)
  refine ⟨t, h', by rw [e]; exact e1, ?_⟩
  have hl := f1 (fl hf) rfl
  subst hl
  cases t with
  | none => exact Owned.eq (by simpa using o1)
  | some a =>
    obtain ⟨v, -, hv⟩ := p1 a rfl
    refine ⟨o1.fresh a (by simp), Json.print fmt 0 v, funext fun x => ?_⟩
    by_cases hx : x = a
    · subst hx; simp [hv]
    · rw [upd_other _ _ hx]
      exact o1.same x (by simp [hx])

/-- A reader of a text in memory. -/
def textAt (h : Heap) : Option Nat → Option Bytes
  | some a => match h.mem a with
    | some (.str s) => some s
    | _ => none
  | none => none

/-- **C177 fails.** Success is reported for a payment without its amount, for an answer to a published event without its verdict, and for an
event without its kind. -/
theorem C177_refuted : ∃ A B C, Fresh A ∧ Fresh B ∧ Fresh C ∧
    ((Doc.payInvoice (c!"lnbc1") (some 7)).code A env empty).map (fun r => textAt r.2 r.1) = some (some (c!"{\"invoice\":\"lnbc1\"}")) ∧
    ((Doc.message (.ok (c!"ab") true (c!"no"))).code B env empty).map (fun r => textAt r.2 r.1) = some (some (c!"[\"OK\",\"ab\",\"no\"]")) ∧
    ((Doc.event { note with tags := [] }).code C env empty).map (fun r => ((textAt r.2 r.1).bind Json.parse).map fun j => (Json.get j (c!"kind"), Json.get j (c!"content"))) =
      some (some (none, some (.str (c!"hi")))) :=
  ⟨Filter.Props.failAt 4, Filter.Props.failAt 5, Filter.Props.failAt 9, Ev.Props.failAt_fresh 4, Ev.Props.failAt_fresh 5, Ev.Props.failAt_fresh 9,
    by decide +kernel, by decide +kernel, by decide +kernel⟩

/-- **C178 fails.** Without memory for a record of a keysend payment the array of records is lost; without memory for the array of tags
the tags are, and success is reported. -/
theorem C178_refuted : ∃ A B, Fresh A ∧ Fresh B ∧
    ((Doc.payKeysend 7 (c!"aa") none [c!"1", c!"v"]).code A env empty).map (fun r => (r.1, (r.2.mem 106).isSome)) = some (none, true) ∧
    ((Doc.event note).code B env empty).map (fun r => (r.1.isSome, (r.2.mem 114).isSome)) = some (true, true) :=
  ⟨Filter.Props.failAt 7, Filter.Props.failAt 11, Ev.Props.failAt_fresh 7, Ev.Props.failAt_fresh 11, by decide +kernel, by decide +kernel⟩

/-- The hypotheses hold for ordinary texts. -/
example : (∃ s, (Doc.event note).text env = .ok s) ∧ (∃ s, (Doc.payKeysend 7 (c!"aa") none [c!"1", c!"v"]).text env = .ok s) ∧
    (∃ s, (Doc.message (.count (c!"q") 3 true)).text env = .ok s ∧ (Doc.message (.count (c!"q") 3 true)).simple) :=
  ⟨⟨_, rfl⟩, ⟨_, rfl⟩, ⟨_, rfl, trivial⟩⟩

end Nostr.Own.Tree.Props
