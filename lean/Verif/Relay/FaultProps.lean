import Verif.Relay.Faults
import Verif.Relay.Props
import Verif.RelayProto.Lemmas
import Verif.Num

/-! # Property theorems: where the relay client connects to (C130), failed subscriptions (C131) -/

namespace Nostr.Relay.Props
open Nostr Nostr.Event Nostr.Json Nostr.Relay

/-! ## Specification -/

/-- A relay URL: scheme, host, optional port, optional path (the part behind the slash). -/
structure Url where
  tls : Bool
  host : Bytes
  port : Option Nat
  path : Option Bytes

/-- A port and a path as they are written. -/
def portText : Option Nat → Bytes
  | none => []
  | some p => c!":" ++ Num.decNat p
def pathText : Option Bytes → Bytes
  | none => []
  | some p => c!"/" ++ p

/-- How it is written. -/
def Url.text (u : Url) : Bytes :=
  (if u.tls then c!"wss://" else c!"ws://") ++ u.host ++ portText u.port ++ pathText u.path

/-- Where it leads: 443 and 80 are the ports of the two schemes. Paths are handed over without their slash, no path as
the root. -/
def Url.target (u : Url) : Target :=
  ⟨u.tls, u.port.getD (if u.tls then 443 else 80), u.host, u.path.getD c!"/"⟩

/-! ## C130 -/

theorem target_slash {tls : Bool} {port : Nat} {a p : Bytes} (h : 0x2f ∉ a) :
    Relay.target tls port (a ++ 0x2f :: p) = ⟨tls, port, a, p⟩ := by
  unfold Relay.target; rw [RelayProto.strchr_append h]

theorem target_plain {tls : Bool} {port : Nat} {a : Bytes} (h : 0x2f ∉ a) : Relay.target tls port a = ⟨tls, port, a, c!"/"⟩ := by
  unfold Relay.target RelayProto.strchr; rw [if_neg h]

/-- What every relay URL comes to: the port in it stays part of the address. -/
theorem C130_exact (u : Url) (h : 0x2f ∉ u.host) :
    resolve true u.text = .ok ⟨u.tls, if u.tls then 443 else 80,
      u.host ++ portText u.port, u.path.getD c!"/"⟩ := by
  obtain ⟨tls, host, port, path⟩ := u
  have hp : 0x2f ∉ host ++ portText port := by
    simp only [List.mem_append, not_or]
    refine ⟨h, ?_⟩
    cases port with
    | none => simp [portText]
    | some p =>
      simp only [portText, List.mem_append, not_or]
      refine ⟨by decide, fun hm => ?_⟩
      have := Num.decNat_digits p _ hm
      revert this; decide
  have key : ∀ (x : Bool) (y : Nat), Relay.target x y (host ++ portText port ++
      pathText path) =
      ⟨x, y, host ++ portText port, path.getD c!"/"⟩ := by
    intro x y
    cases path with
    | none => rw [pathText, List.append_nil]; exact target_plain hp
    | some p => exact target_slash hp
  unfold Url.text resolve
  cases tls with
  | true =>
    simp only [if_true, Bool.not_true, Bool.false_eq_true, if_false, List.append_assoc] at key ⊢
    rw [List.take_left' (by rfl), if_pos rfl, List.drop_left' (by rfl), key]
  | false =>
    simp only [Bool.not_true, Bool.false_eq_true, if_false, List.append_assoc] at key ⊢
    rw [if_neg (by simp), List.take_left' (by rfl), if_pos rfl, List.drop_left' (by rfl), key]

/-- **C130**, the part that holds: a URL without a port leads where it says. Missing: URLs with a port, see
`C130_port_refuted`; running out of memory, see `C130_memory_refuted`. -/
theorem C130_connect_partial (u : Url) (h : 0x2f ∉ u.host) (hp : u.port = none) : resolve true u.text = .ok u.target := by
  rw [C130_exact u h]
  unfold Url.target
  rw [hp]
  simp [portText]

/-- C130: exactly the texts that begin with one of the two schemes are accepted. -/
theorem C130_schemes (s : Bytes) : (∃ t, resolve true s = .ok t) ↔ (c!"wss://" <+: s ∨ c!"ws://" <+: s) := by
  have pre : ∀ (n : Nat) (p : Bytes), p.length = n → (s.take n = p ↔ p <+: s) := by
    intro n p hn
    constructor
    · intro h; rw [← h]; exact List.take_prefix n s
    · rintro ⟨t, rfl⟩; rw [List.take_left' hn]
  unfold resolve
  simp only [Bool.not_true, Bool.false_eq_true, if_false]
  rw [← pre 6 _ rfl, ← pre 5 _ rfl]
  by_cases h1 : s.take 6 = c!"wss://"
  · rw [if_pos h1]; exact ⟨fun _ => .inl h1, fun _ => ⟨_, rfl⟩⟩
  · rw [if_neg h1]
    by_cases h2 : s.take 5 = c!"ws://"
    · rw [if_pos h2]; exact ⟨fun _ => .inr h2, fun _ => ⟨_, rfl⟩⟩
    · rw [if_neg h2]
      constructor
      · rintro ⟨t, h⟩; cases h
      · rintro (h | h)
        · exact absurd h h1
        · exact absurd h h2

/-- C130: transport security is used exactly for the secure scheme. -/
theorem C130_tls {s : Bytes} {t : Target} (h : resolve true s = .ok t) :
    (t.tls = true ↔ c!"wss://" <+: s) ∧ t.port = (if t.tls then 443 else 80) := by
  have hs : ∀ (b : Bool) (p : Nat) (x : Bytes), (Relay.target b p x).tls = b ∧ (Relay.target b p x).port = p := by
    intro b p x; unfold Relay.target; split <;> exact ⟨rfl, rfl⟩
  have hw : c!"wss://" <+: s → s.take 6 = c!"wss://" := by rintro ⟨t, rfl⟩; exact List.take_left' rfl
  unfold resolve at h
  simp only [Bool.not_true, Bool.false_eq_true, if_false] at h
  by_cases h1 : s.take 6 = c!"wss://"
  · rw [if_pos h1] at h
    cases h
    refine ⟨⟨fun _ => by rw [← h1]; exact List.take_prefix 6 s, fun _ => (hs _ _ _).1⟩, ?_⟩
    rw [(hs _ _ _).1, (hs _ _ _).2]; rfl
  · rw [if_neg h1] at h
    by_cases h2 : s.take 5 = c!"ws://"
    · rw [if_pos h2] at h
      cases h
      refine ⟨⟨fun h => ?_, fun h => absurd (hw h) h1⟩, ?_⟩
      · rw [(hs _ _ _).1] at h; cases h
      · rw [(hs _ _ _).1, (hs _ _ _).2]; rfl
    · rw [if_neg h2] at h; cases h

/-- C130 as stated fails: no URL with a port, whatever its host and path, leads where it says. -/
theorem C130_port_refuted (u : Url) (h : 0x2f ∉ u.host) {p : Nat} (hp : u.port = some p) : resolve true u.text ≠ .ok u.target := by
  rw [C130_exact u h, hp]
  intro he
  simp only [Url.target, hp, Res.ok.injEq, Target.mk.injEq] at he
  have := congrArg List.length he.2.2.1
  simp [portText] at this

/-- C130: without memory for the copy of the URL a NULL pointer is read. -/
theorem C130_memory_refuted (u : Url) : resolve false u.text = .ub := rfl

/-- A URL with a port and a path. -/
example : (⟨false, c!"localhost", some 7777, some c!"chat"⟩ : Url).text = c!"ws://localhost:7777/chat" ∧
    resolve true c!"ws://localhost:7777/chat" = .ok ⟨false, 80, c!"localhost:7777", c!"chat"⟩ ∧
    resolve true c!"wss://relay.example.com" = .ok ⟨true, 443, c!"relay.example.com", c!"/"⟩ := by decide +kernel

/-! ## C131 -/

/-- Subscriptions with ids. -/
def named (s : Sub) : NSub := ⟨some s.id, s.cb⟩

theorem removeF_named (id : Bytes) (subs : List Sub) : removeF id (subs.map named) = .ok ((removeSub id subs).map named) := by
  induction subs with
  | nil => rfl
  | cons s ss ih =>
    simp only [List.map_cons, removeF, removeSub, named]
    by_cases h : s.id = id
    · rw [if_pos h, if_pos h]
    · rw [if_neg h, if_neg h]
      rw [ih]; rfl

theorem findF_named (id : Bytes) (subs : List Sub) :
    findF id (subs.map named) = .ok ((subs.find? fun s => decide (s.id = id)).map named) := by
  induction subs with
  | nil => rfl
  | cons s ss ih =>
    simp only [List.map_cons, findF, named, List.find?_cons]
    by_cases h : s.id = id
    · rw [if_pos h]; simp [h, named]
    · rw [if_neg h, ih]; simp [h]

/-- Without failures the calls are those of C90 and C92. -/
theorem C131_no_failure (subs : List Sub) (id filters : Bytes) (cb : Option Nat) :
    (subscribeF .no (subs.map named) id filters cb =
      match subscribe subs id filters cb with
      | .ok (l, t) => .ok ⟨none, l.map named, some t⟩
      | .err e => .ok ⟨some e, subs.map named, none⟩
      | .ub => .ub) ∧
    (unsubscribeF .no (subs.map named) id =
      match unsubscribe subs id with
      | .ok (l, t) => .ok ⟨none, l.map named, some t⟩
      | .err e => .ok ⟨some e, subs.map named, none⟩
      | .ub => .ub) ∧
    ∀ (P : Plat) (b : Build) (cfg : Option Config.Config) (r : Bytes → Json) (hasCb : Bool) (text : Bytes),
      dispatchF P b cfg r hasCb (subs.map named) text =
        .ok ((dispatch P b cfg r hasCb subs text).1.map named, (dispatch P b cfg r hasCb subs text).2) := by
  refine ⟨?_, ?_, ?_⟩
  · unfold subscribeF subscribe transmit reqText
    by_cases h : validSubId id = true
    · simp only [h, Bool.not_true, Bool.false_eq_true, if_false, reduceCtorEq]
      cases parse filters with
      | none => rfl
      | some j =>
        rw [if_neg (by simp; omega)]
        rfl
    · simp [h]
  · unfold unsubscribeF unsubscribe transmit closeText
    by_cases h : validSubId id = true
    · simp only [h, Bool.not_true, Bool.false_eq_true, if_false, reduceCtorEq, removeF_named, Res.bind_ok]
      rw [if_neg (by simp)]
      rfl
    · simp [h]
  · intro P b cfg r hasCb text
    unfold dispatchF dispatch
    cases parse text with
    | none => rfl
    | some j =>
      match j with
      | .arr (.str t :: j1 :: js) =>
        simp only
        by_cases h1 : t = c!"EVENT" ∧ js ≠ []
        · rw [if_pos h1, if_pos h1]
          match j1, js, h1 with
          | .str id, ev :: _, _ =>
            simp only [findF_named, Res.bind_ok, deliver]
            cases hf : subs.find? fun s => decide (s.id = id) with
            | none => rfl
            | some s =>
              simp only [Option.map_some]
              cases fromJson P b cfg (print true 0 (mapNum r ev)) with
              | ok e => cases s with | mk i c => cases c <;> rfl
              | err e => rfl
              | ub => rfl
          | .null, _, _ => rfl
          | .tru, _, _ => rfl
          | .fls, _, _ => rfl
          | .num _, _, _ => rfl
          | .arr _, _, _ => rfl
          | .obj _, _, _ => rfl
        · rw [if_neg h1, if_neg h1]
          by_cases h2 : t = c!"CLOSED" ∧ js ≠ []
          · rw [if_pos h2, if_pos h2]
            cases j1 <;> simp [removeF_named]
          · rw [if_neg h2, if_neg h2]
      | .null => rfl
      | .tru => rfl
      | .fls => rfl
      | .num _ => rfl
      | .str _ => rfl
      | .obj _ => rfl
      | .arr [] => rfl
      | .arr [.str _] => rfl
      | .arr (.null :: _) => rfl
      | .arr (.tru :: _) => rfl
      | .arr (.fls :: _) => rfl
      | .arr (.num _ :: _) => rfl
      | .arr (.arr _ :: _) => rfl
      | .arr (.obj _ :: _) => rfl

/-- **C131**, the part that holds. A call to subscribe never misbehaves. If it succeeds a request was sent and one
subscription was added in front. If it refuses its arguments, or cannot allocate the subscription, nothing changed and
nothing was sent. In every other failure nothing was sent either. Missing: in those the subscription has been added,
see `C131_registered_refuted`. -/
theorem C131_subscribe_partial (f : Fault) (subs : List NSub) (id filters : Bytes) (cb : Option Nat) :
    ∃ d, subscribeF f subs id filters cb = .ok d ∧
      (d.status = none → (∃ t, d.sent = some t) ∧ ∃ s, d.subs = s :: subs ∧ s.cb = cb ∧ (f ≠ .id → s.id = some id)) ∧
      (d.status ≠ none → d.sent = none) ∧
      (d.status = some .invalidParam ∨ f = .sub → d.subs = subs ∧ d.status ≠ none) := by
  unfold subscribeF transmit reqText
  by_cases h : validSubId id = true
  · simp only [h, Bool.not_true, Bool.false_eq_true, if_false]
    by_cases h1 : f = .sub
    · rw [if_pos h1]; exact ⟨_, rfl, by simp, by simp, by simp⟩
    · rw [if_neg h1]
      cases parse filters with
      | none => exact ⟨_, rfl, by simp, by simp, by simp⟩
      | some j =>
        simp only
        rw [if_neg (c := List.length _ + 1 > _) (by simp; omega)]
        simp only [Res.bind_ok]
        cases f with
        | no => exact ⟨_, rfl, by simp, by simp, by simp⟩
        | sub => exact absurd rfl h1
        | id => exact ⟨_, rfl, by simp, by simp, by simp⟩
        | msg => exact ⟨_, rfl, by simp, by simp, by simp⟩
        | buf => exact ⟨_, rfl, by simp, by simp, by simp⟩
        | write => exact ⟨_, rfl, by simp, by simp, by simp⟩
  · simp only [h, Bool.not_false, if_true]
    exact ⟨_, rfl, by simp, by simp, by simp⟩

theorem removeSub_erase (id : Bytes) (subs : List Sub) : removeSub id subs = subs.eraseP fun s => decide (s.id = id) := by
  induction subs with
  | nil => rfl
  | cons s ss ih =>
    rw [removeSub, List.eraseP_cons]
    by_cases h : s.id = id
    · simp [h]
    · simp [h, ih]

/-- **C131**, the part that holds, for ending a subscription while all ids are present: the call never misbehaves. On
success the relay was told and the first subscription with this id is gone. If the id is refused nothing changed. In
every failure nothing was sent. Missing: in the other failures the subscription is gone, see `C131_removed_refuted`. -/
theorem C131_unsubscribe_partial (f : Fault) (subs : List Sub) (id : Bytes) :
    ∃ d, unsubscribeF f (subs.map named) id = .ok d ∧
      (d.status = none → d.sent = some (c!"[\"CLOSE\",\"" ++ id ++ c!"\"]") ∧
        d.subs = (subs.eraseP fun s => decide (s.id = id)).map named) ∧
      (d.status ≠ none → d.sent = none) ∧ (d.status = some .invalidParam → d.subs = subs.map named) := by
  rw [← removeSub_erase]
  unfold unsubscribeF transmit closeText
  by_cases h : validSubId id = true
  · simp only [h, Bool.not_true, Bool.false_eq_true, if_false, removeF_named, Res.bind_ok]
    rw [if_neg (c := List.length _ + 1 > _) (by simp)]
    simp only [Res.bind_ok]
    cases f <;> exact ⟨_, rfl, by simp, by simp, by simp⟩
  · simp only [h, Bool.not_false, if_true]
    exact ⟨_, rfl, by simp, by simp, by simp⟩

/-- C131 as stated fails (subscribing): for every accepted id and filter, if the text cannot be made or written, the
call reports an error although the subscription is in place, and an event the relay sends for it afterwards calls
the callback. -/
theorem C131_registered_refuted {f : Fault} (hf : f = .msg ∨ f = .buf ∨ f = .write) (subs : List NSub) {id filters : Bytes}
    (hid : validSubId id = true) {j : Json} (hj : parse filters = some j) (k : Nat) :
    ∃ e, subscribeF f subs id filters (some k) = .ok ⟨some e, ⟨some id, some k⟩ :: subs, none⟩ ∧
      ∀ {P : Plat} {b : Build} {cfg : Option Config.Config} {r : Bytes → Json} {hasCb : Bool} {text : Bytes} {ev : Json} {x : Event},
        parse text = some (.arr [.str c!"EVENT", .str id, ev]) → fromJson P b cfg (print true 0 (mapNum r ev)) = .ok x →
        dispatchF P b cfg r hasCb (⟨some id, some k⟩ :: subs) text = .ok (⟨some id, some k⟩ :: subs, [.event k x]) := by
  have h2 : ∀ {P : Plat} {b : Build} {cfg : Option Config.Config} {r : Bytes → Json} {hasCb : Bool} {text : Bytes} {ev : Json} {x : Event},
        parse text = some (.arr [.str c!"EVENT", .str id, ev]) → fromJson P b cfg (print true 0 (mapNum r ev)) = .ok x →
        dispatchF P b cfg r hasCb (⟨some id, some k⟩ :: subs) text = .ok (⟨some id, some k⟩ :: subs, [.event k x]) := by
    intro P b cfg r hasCb text ev x ht hx
    unfold dispatchF
    rw [ht]
    simp only [ne_eq, reduceCtorEq, not_false_eq_true, and_self, if_true, findF, Res.bind_ok]
    rw [hx]
  unfold subscribeF transmit reqText
  simp only [hid, Bool.not_true, Bool.false_eq_true, if_false, hj]
  rw [if_neg (c := List.length _ + 1 > _) (by simp; omega)]
  rcases hf with rfl | rfl | rfl
  · exact ⟨.memory, rfl, h2⟩
  · exact ⟨.memory, rfl, h2⟩
  · exact ⟨.connection, rfl, h2⟩

/-- C131: if the copy of the id cannot be made, the call succeeds, and the next event for any subscription reads
through a NULL pointer. -/
theorem C131_null_refuted (subs : List NSub) {id filters : Bytes} (hid : validSubId id = true) {j : Json}
    (hj : parse filters = some j) (cb : Option Nat) :
    ∃ d, subscribeF .id subs id filters cb = .ok d ∧ d.status = none ∧
      ∀ {P : Plat} {b : Build} {cfg : Option Config.Config} {r : Bytes → Json} {hasCb : Bool} {text i : Bytes} {ev : Json},
        parse text = some (.arr [.str c!"EVENT", .str i, ev]) → dispatchF P b cfg r hasCb d.subs text = .ub := by
  refine ⟨⟨none, ⟨none, cb⟩ :: subs, some (c!"[\"REQ\",\"" ++ id ++ c!"\"," ++ filters ++ c!"]")⟩, ?_, rfl, ?_⟩
  · unfold subscribeF transmit reqText
    simp only [hid, Bool.not_true, Bool.false_eq_true, if_false, hj]
    rw [if_neg (c := List.length _ + 1 > _) (by simp; omega)]
    rfl
  · intro P b cfg r hasCb text i ev ht
    unfold dispatchF
    rw [ht]
    simp only [ne_eq, reduceCtorEq, not_false_eq_true, and_self, if_true, findF, Res.bind_ub]

/-- C131 as stated fails (unsubscribing): if the text cannot be made or written, the call reports an error although the
subscription is gone; events the relay goes on sending are dropped. -/
theorem C131_removed_refuted {f : Fault} (hf : f = .msg ∨ f = .buf ∨ f = .write) {id : Bytes} (hid : validSubId id = true)
    (k : Nat) : ∃ e, unsubscribeF f [⟨some id, some k⟩] id = .ok ⟨some e, [], none⟩ := by
  unfold unsubscribeF transmit closeText
  simp only [hid, Bool.not_true, Bool.false_eq_true, if_false, removeF, if_true, Res.bind_ok]
  rcases hf with rfl | rfl | rfl
  · exact ⟨.memory, rfl⟩
  · rw [if_neg (c := List.length _ + 1 > _) (by simp)]; exact ⟨.memory, rfl⟩
  · rw [if_neg (c := List.length _ + 1 > _) (by simp)]; exact ⟨.connection, rfl⟩

/-- An accepted id and filter. -/
example : validSubId c!"feed" = true ∧ parse c!"{\"kinds\":[1]}" = some (.obj [(c!"kinds", .arr [.num c!"1"])]) := by
  decide +kernel

/-- A message for it that holds an event. -/
example : ∃ ev, parse c!"[\"EVENT\",\"feed\",{\"kind\":1}]" = some (.arr [.str c!"EVENT", .str c!"feed", ev]) ∧
    (fromJson ⟨fun _ => 0, false⟩ (.cjson id fun _ => []) none (print true 0 (mapNum (fun t => .num t) ev))).isOk = true :=
  ⟨.obj [(c!"kind", .num c!"1")], by decide +kernel, by decide +kernel⟩

end Nostr.Relay.Props
