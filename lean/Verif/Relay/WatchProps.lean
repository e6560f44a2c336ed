import Verif.Relay.Watch
import Verif.Relay.Props
import Verif.Event.Props

/-! # Property theorems: C218 (the subscribing example) -/

namespace Nostr.Relay.Watch.Props
open Nostr Nostr.Event Nostr.Event.Spec Nostr.Event.Props Nostr.Json Nostr.Relay Nostr.Relay.Spec Nostr.Relay.Props Nostr.Relay.Watch

/-- The line describes the event: its time of day, kind, the first 12 hex digits of its key, its content (the first 77 bytes and dots where it has more than
80), the names of its first three tags, and how many more there are. -/
def Describes (cal : Int → Option Bytes) (e : Event) (l : Line) : Prop :=
  cal e.createdAt = some l.time ∧ l.kind = e.kind ∧ l.who = (Hex.hexEncode e.pubkey).take 12 ∧
  (∀ s, (e.content = some s ∨ e.content = none ∧ s = c!"(no content)") →
    (s.length ≤ 80 → l.text = s) ∧ (80 < s.length → ∃ a b, s = a ++ b ∧ a.length = 77 ∧ l.text = a ++ c!"...")) ∧
  l.tags = (e.tags.take 3).filterMap List.head? ∧ (l.more = 0 ∧ e.tags.length ≤ 3 ∨ e.tags.length = 3 + l.more)

theorem show1_spec {cal : Int → Option Bytes} {e : Event} {l : Line} (h : show1 cal e = .ok l) : Describes cal e l := by
  unfold show1 at h
  split at h
  · simp at h
  · rename_i hms hc
    simp only [Res.ok.injEq] at h
    subst h
    refine ⟨hc, rfl, rfl, ?_, rfl, ?_⟩
    · intro s hs
      have : e.content.getD (c!"(no content)") = s := by
        rcases hs with h | ⟨h, rfl⟩ <;> rw [h] <;> rfl
      simp only [this]
      refine ⟨fun h => by rw [if_neg (by omega)], fun h => ⟨s.take 77, s.drop 77, (List.take_append_drop 77 s).symm, ?_, by rw [if_pos h]⟩⟩
      rw [List.length_take]; omega
    · simp only; omega

theorem show1_ok {cal : Int → Option Bytes} {e : Event} : (∃ l, show1 cal e = .ok l) ↔ cal e.createdAt ≠ none := by
  unfold show1
  cases cal e.createdAt <;> simp

theorem show1_ub {cal : Int → Option Bytes} {e : Event} (h : cal e.createdAt = none) : show1 cal e = .ub := by
  unfold show1; rw [h]

theorem tellAll_mem {cal : Int → Option Bytes} (cs : List Call) : ∀ {outs}, tellAll cal cs = .ok outs →
    ∀ l, Out.event l ∈ outs ↔ ∃ k e, Call.event k e ∈ cs ∧ show1 cal e = .ok l := by
  induction cs with
  | nil => intro outs h l; simp only [tellAll, Res.ok.injEq] at h; subst h; simp
  | cons c cs ih =>
    intro outs h l
    rw [tellAll, Res.bind_eq_ok] at h
    obtain ⟨a, h1, h⟩ := h
    rw [Res.bind_eq_ok] at h
    obtain ⟨b, h2, h⟩ := h
    simp only [Res.ok.injEq] at h
    subst h
    rw [List.mem_append, ih h2]
    have key : Out.event l ∈ a ↔ ∃ k e, Call.event k e = c ∧ show1 cal e = .ok l := by
      cases c with
      | event k e =>
        rw [tell, Res.bind_eq_ok] at h1
        obtain ⟨l', h3, h1⟩ := h1
        simp only [Res.ok.injEq] at h1
        subst h1
        simp only [List.mem_singleton, Out.event.injEq, Call.event.injEq]
        constructor
        · rintro rfl; exact ⟨k, e, ⟨rfl, rfl⟩, h3⟩
        · rintro ⟨_, _, ⟨rfl, rfl⟩, h⟩
          rw [h3, Res.ok.injEq] at h
          exact h.symm
      | message ty d =>
        rw [tell] at h1
        simp only [reduceCtorEq, false_and, exists_false, iff_false]
        split at h1
        · simp only [Res.ok.injEq] at h1; subst h1; simp
        · split at h1 <;> (simp only [Res.ok.injEq] at h1; subst h1; simp)
    rw [key]
    constructor
    · rintro (⟨k, e, rfl, h⟩ | ⟨k, e, hm, h⟩)
      · exact ⟨k, e, List.mem_cons_self .., h⟩
      · exact ⟨k, e, List.mem_cons_of_mem _ hm, h⟩
    · rintro ⟨k, e, hm, h⟩
      rcases List.mem_cons.1 hm with hm | hm
      · exact .inl ⟨k, e, hm, h⟩
      · exact .inr ⟨k, e, hm, h⟩

/-- **C218** (part), what is shown. After any history of subscribing, unsubscribing and texts from the relay, a text makes the program print a line for an event
exactly when it is an EVENT message for a subscription that is in force and its event can be read; the line then describes this event. Missing: nothing says that the
event was asked for or that its author has signed it (`C218_forged_refuted`), and the program need not survive (`C218_crash_refuted`). -/
theorem C218_shown_partial {P : Plat} {r : Bytes → Json} (hr : Renum r) (td fr cfg) {cal : Int → Option Bytes} (past : List Op) (t : Bytes)
    {outs : List Out}
    (h : tellAll cal (step P (.cjson td fr) cfg r true (subsAfter P (.cjson td fr) cfg r true past) (.text t)).2 = .ok outs) :
    (∀ l, Out.event l ∈ outs → ∃ k id ev rest e, parse t = some (.arr (.str (c!"EVENT") :: .str id :: ev :: rest)) ∧
      (stack id past).head? = some (some k) ∧ fromTree P cfg (mapNum r ev) = .ok e ∧ Describes cal e l) ∧
    ∀ k id ev rest e, parse t = some (.arr (.str (c!"EVENT") :: .str id :: ev :: rest)) → (stack id past).head? = some (some k) →
      fromTree P cfg (mapNum r ev) = .ok e → ∃ l, outs = [.event l] ∧ Describes cal e l := by
  constructor
  · intro l hl
    obtain ⟨k, e, hm, hs⟩ := (tellAll_mem _ h l).1 hl
    obtain ⟨id, ev, rest, h1, h2, h3⟩ := (C90_routing hr td fr cfg true past t k e).1 hm
    exact ⟨k, id, ev, rest, e, h1, h2, h3, show1_spec hs⟩
  · intro k id ev rest e h1 h2 h3
    have hm := (C90_routing hr td fr cfg true past t k e).2 ⟨id, ev, rest, h1, h2, h3⟩
    have hl := C90_once P (.cjson td fr) cfg r true (subsAfter P (.cjson td fr) cfg r true past) t
    generalize (step P (.cjson td fr) cfg r true (subsAfter P (.cjson td fr) cfg r true past) (.text t)).2 = cs at h hm hl
    match cs, hm, hl, h with
    | [c], hm, _, h =>
      rw [List.mem_singleton] at hm
      subst hm
      rw [tellAll, Res.bind_eq_ok] at h
      obtain ⟨a, h4, h⟩ := h
      simp only [tellAll, Res.bind_ok, List.append_nil, Res.ok.injEq] at h
      subst h
      rw [tell, Res.bind_eq_ok] at h4
      obtain ⟨l, h5, h4⟩ := h4
      simp only [Res.ok.injEq] at h4
      exact ⟨l, h4.symm, show1_spec h5⟩
    | _ :: _ :: _, _, hl, _ => simp at hl

/-- **C218, survival.** A text is dealt with, and at most one thing is printed, unless it brings an event with a time stamp outside the calendar of
the host. -/
theorem C218_safe_partial {P : Plat} {b : Build} {cfg : Option Config.Config} {r : Bytes → Json} {cal : Int → Option Bytes} (subs : List Sub) (t : Bytes)
    (h : ∀ k e, Call.event k e ∈ (step P b cfg r true subs (.text t)).2 → cal e.createdAt ≠ none) :
    ∃ outs, tellAll cal (step P b cfg r true subs (.text t)).2 = .ok outs ∧ outs.length ≤ 1 := by
  have hl := C90_once P b cfg r true subs t
  generalize (step P b cfg r true subs (.text t)).2 = cs at h hl
  match cs, hl, h with
  | [], _, _ => exact ⟨[], rfl, by simp⟩
  | [.event k e], _, h =>
    obtain ⟨l, hs⟩ := show1_ok.2 (h k e (List.mem_singleton.2 rfl))
    exact ⟨[.event l], by simp [tellAll, tell, hs], by simp⟩
  | [.message ty d], _, _ =>
    simp only [tellAll, tell]
    split
    · exact ⟨_, rfl, by simp⟩
    · split <;> exact ⟨_, rfl, by simp⟩
  | _ :: _ :: _, hl, _ => simp at hl

/-! ## Where it fails -/

/-- An event with a time stamp of 10^17 seconds. -/
def farMsg : Bytes := c!"[\"EVENT\",\"text-notes\",{\"created_at\":1e17}]"

theorem farMsg_parse : parse farMsg = some (.arr [.str (c!"EVENT"), .str (c!"text-notes"), .obj [(c!"created_at", .num (c!"1e17"))]]) := by
  have h : (match parse farMsg with
    | some (.arr [.str a, .str b, .obj [(k, .num t)]]) => decide (a = c!"EVENT" ∧ b = c!"text-notes" ∧ k = c!"created_at" ∧ t = c!"1e17")
    | _ => false) = true := by decide +kernel
  split at h
  · rename_i a b k t hp
    rw [hp]
    simp only [decide_eq_true_eq] at h
    obtain ⟨rfl, rfl, rfl, rfl⟩ := h
    rfl
  · simp at h

/-- **C218 fails**: on a host whose calendar ends before the year 2^31, one message of the relay, with the time stamp 10^17, makes the program run into undefined
behaviour, after any history in which its first subscription is in force. (`hn` and `hv` say that cJSON prints and reads 1e17 as itself.) -/
theorem C218_crash_refuted {P : Plat} {r : Bytes → Json} (hr : Renum r) (td fr cfg) {cal : Int → Option Bytes} (hcal : cal (10 ^ 17) = none)
    {tok : Bytes} (hn : r (c!"1e17") = .num tok) (hv : int64 P.real tok = 10 ^ 17) {past : List Op} {k : Nat}
    (hs : (stack (c!"text-notes") past).head? = some (some k)) :
    tellAll cal (step P (.cjson td fr) cfg r true (subsAfter P (.cjson td fr) cfg r true past) (.text farMsg)).2 = .ub := by
  have he : fromTree P cfg (mapNum r (.obj [(c!"created_at", .num (c!"1e17"))])) = .ok { zero with createdAt := 10 ^ 17 } := by
    have h1 : mapNum r (.obj [(c!"created_at", .num (c!"1e17"))]) = .obj [(c!"created_at", .num tok)] := by
      simp only [mapNum, mapNumM, hn]
    rw [h1]
    have h2 : fromTree P cfg (.obj [(c!"created_at", .num tok)]) = .ok { zero with createdAt := int64 P.real tok } := rfl
    rw [h2, hv]
  have hm := (C90_routing hr td fr cfg true past farMsg k _).2 ⟨_, _, _, farMsg_parse, hs, he⟩
  have hl := C90_once P (.cjson td fr) cfg r true (subsAfter P (.cjson td fr) cfg r true past) farMsg
  generalize (step P (.cjson td fr) cfg r true (subsAfter P (.cjson td fr) cfg r true past) (.text farMsg)).2 = cs at hm hl
  match cs, hm, hl with
  | [c], hm, _ =>
    rw [List.mem_singleton] at hm
    subst hm
    rw [tellAll, tell, show1_ub hcal]
    rfl
  | _ :: _ :: _, _, hl => simp at hl

/-- **C218 fails**: the program asks for notes of kind 1, and an object without any field is shown as an event of kind 0 from the key of zeros: neither
what was asked for nor who has signed is looked at. -/
theorem C218_forged_refuted {P : Plat} {r : Bytes → Json} (hr : Renum r) (td fr cfg) {cal : Int → Option Bytes} {hms : Bytes}
    (hcal : cal 0 = some hms) {C : Crypto} {b : Build} (hz : ∀ key id, C.verify key id (List.replicate 64 0) = false)
    {past : List Op} {k : Nat} (hs : (stack (c!"text-notes") past).head? = some (some k)) :
    ∃ t l e, tellAll cal (step P (.cjson td fr) cfg r true (subsAfter P (.cjson td fr) cfg r true past) (.text t)).2 = .ok [.event l] ∧
      Describes cal e l ∧ l.kind = 0 ∧ verify C b e ≠ .ok () := by
  have hp : parse (c!"[\"EVENT\",\"text-notes\",{}]") = some (.arr [.str (c!"EVENT"), .str (c!"text-notes"), .obj []]) := by
    have h : (match parse (c!"[\"EVENT\",\"text-notes\",{}]") with
      | some (.arr [.str a, .str b, .obj []]) => decide (a = c!"EVENT" ∧ b = c!"text-notes")
      | _ => false) = true := by decide +kernel
    split at h
    · rename_i a b hp
      rw [hp]
      simp only [decide_eq_true_eq] at h
      obtain ⟨rfl, rfl⟩ := h
      rfl
    · simp at h
  have he : fromTree P cfg (mapNum r (.obj [])) = .ok zero := rfl
  have hm := (C90_routing hr td fr cfg true past _ k _).2 ⟨_, _, _, hp, hs, he⟩
  obtain ⟨outs, ho, -⟩ := C218_safe_partial (P := P) (b := .cjson td fr) (cfg := cfg) (r := r) (cal := cal)
    (subsAfter P (.cjson td fr) cfg r true past) (c!"[\"EVENT\",\"text-notes\",{}]") (by
      intro k' e' h'
      obtain ⟨id, ev, rest, h1, -, h3⟩ := (C90_routing hr td fr cfg true past _ k' e').1 h'
      rw [hp] at h1
      simp only [Option.some.injEq, Json.arr.injEq, List.cons.injEq] at h1
      rw [← h1.2.2.1, he, Res.ok.injEq] at h3
      rw [← h3, show zero.createdAt = 0 from rfl, hcal]
      simp)
  obtain ⟨l, rfl, hd⟩ := (C218_shown_partial hr td fr cfg past _ ho).2 k _ _ _ _ hp hs he
  refine ⟨_, l, zero, ho, hd, hd.2.1, ?_⟩
  intro hv
  unfold verify at hv
  rw [Res.bind_eq_ok] at hv
  obtain ⟨e1, -, hv⟩ := hv
  rw [show zero.sig = List.replicate 64 0 from rfl, hz] at hv
  split at hv
  · simp at hv
  · split at hv <;> simp at hv

/-! Non-vacuity: the calendar of a host with years up to 2^31 gives no time of day for 10^17 seconds, the first subscription is in force after the relay has closed
another one, and a line for an event with long content and four tags. -/

/-- A host that prints the same time of day for every time stamp below 2^31 years. -/
def host : Int → Option Bytes := fun t => if t.natAbs < 2 ^ 31 * 31556952 then some (c!"12:00:00") else none

example : host (10 ^ 17) = none ∧ host 0 = some (c!"12:00:00") ∧
    (stack (c!"text-notes") [.text (c!"[\"CLOSED\",\"metadata\",\"\"]"), .subscribe (c!"metadata") (some 0), .subscribe (c!"text-notes") (some 0)]).head? =
      some (some 0) := by decide +kernel

example : show1 host { note with content := some (List.replicate 81 0x61), tags := note.tags ++ note.tags } =
    .ok ⟨c!"12:00:00", 1, c!"abababababab", List.replicate 77 0x61 ++ c!"...", [c!"e", c!"t", c!"e"], 1⟩ := by decide +kernel

end Nostr.Relay.Watch.Props
