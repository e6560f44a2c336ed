import Verif.RelayProto.Length

/-! # Property C185: a text is read up to its length, and not further -/

namespace Nostr.Length.Props
open Nostr Nostr.Event Nostr.Length

/-- For an array that holds at least `len` bytes, a reader given this length does what `meaning` makes of the first `len` bytes. In
particular nothing else in the array matters, and nothing behind it is looked at. -/
def ReadsExactly {α : Type} (read : Bytes → Nat → Res α) (meaning : Bytes → Res α) (buf : Bytes) (len : Nat) : Prop :=
  len ≤ buf.length → read buf len = meaning (buf.take len)

/-- **C185** for filters and client messages, with a positive length. Missing: length 0 (`C185_zero_refuted`), and events
(`C185_event_refuted`). -/
theorem C185_partial (P : Plat) (b : Build) (r : Bytes → Json.Json) (real : Bytes → Int) (cfg : Option Config.Config) (buf : Bytes) {len : Nat}
    (hl : 0 < len) :
    ReadsExactly (filter real) (fun s => Filter.parseFilter real s 0) buf len ∧
    ReadsExactly (message P b r cfg) (fun s => Msg.clientParse P b r cfg s 0) buf len := by
  constructor <;> intro h
  · simp only [filter, upTo, hl, if_true, h, Res.bind_ok]
  · simp only [message, upTo, hl, if_true, h, Res.bind_ok]

/-- Any two arrays with the same beginning are read alike. -/
theorem ReadsExactly.alike {α : Type} {read : Bytes → Nat → Res α} {meaning : Bytes → Res α} {a b : Bytes} {len : Nat}
    (ha : ReadsExactly read meaning a len) (hb : ReadsExactly read meaning b len) (h1 : len ≤ a.length) (h2 : len ≤ b.length)
    (h : a.take len = b.take len) : read a len = read b len := by rw [ha h1, hb h2, h]

theorem cstr_ends {s rest : Bytes} (h : 0 ∉ s) : Json.cstr (s ++ 0 :: rest) = s := by
  unfold Json.cstr
  rw [List.takeWhile_append_of_pos]
  · simp
  · intro x hx
    simp only [bne_iff_ne, ne_eq]
    intro e
    exact h (e ▸ hx)

/-- **C185** for all three readers, if a NUL follows the `len` bytes and none is among them. -/
theorem C185_ended_partial (P : Plat) (b : Build) (r : Bytes → Json.Json) (real : Bytes → Int) (cfg : Option Config.Config) {s rest : Bytes}
    (h : 0 ∉ s) :
    ReadsExactly (event P b cfg) (RelayProto.parseEvent P b cfg) (s ++ 0 :: rest) s.length ∧
    ReadsExactly (filter real) (fun s => Filter.parseFilter real s 0) (s ++ 0 :: rest) s.length ∧
    ReadsExactly (message P b r cfg) (fun s => Msg.clientParse P b r cfg s 0) (s ++ 0 :: rest) s.length := by
  have ht : text (s ++ 0 :: rest) = .ok s := by simp only [text, List.mem_append, List.mem_cons, true_or, or_true, if_true, cstr_ends h]
  have hu : upTo (s ++ 0 :: rest) s.length = .ok s := by
    unfold upTo
    by_cases hl : s.length > 0
    · simp [hl]
    · simp only [hl, if_false, ht]
  have hs : (s ++ 0 :: rest).take s.length = s := by simp
  refine ⟨fun _ => ?_, fun _ => ?_, fun _ => ?_⟩
  · simp only [event, ht, Res.bind_ok, hs]
  · simp only [filter, hu, Res.bind_ok, hs]
  · simp only [message, hu, Res.bind_ok, hs]

/-- A text of an event, complete at its 16th byte. -/
def note : Bytes := c!"{\"content\":\"hi\"} and more"

/-- C185 fails for events. An array that holds exactly the text, without a NUL, is read beyond its end, whatever the text. And where a NUL
follows somewhere, an event is delivered although the text of the given length is not complete. -/
theorem C185_event_refuted (P : Plat) (td : Int → Int) (fr : Int → Bytes) :
    (∀ b cfg buf len, 0 ∉ buf → event P b cfg buf len = .ub) ∧
    (∃ buf len, len ≤ buf.length ∧ event P (.cjson td fr) none buf len = .ok { zero with content := some (c!"hi") } ∧
      RelayProto.parseEvent P (.cjson td fr) none (buf.take len) = .err (.relay .invalidJson)) := by
  refine ⟨fun b cfg buf len h => ?_, note ++ [0], 9, by decide, ?_, ?_⟩
  · simp only [event, text, h, if_false]; rfl
  · have h1 : text (note ++ [0]) = .ok note := by decide +kernel
    have h2 : Json.parse note = some (.obj [(c!"content", .str (c!"hi"))]) := by decide +kernel
    simp only [event, h1, Res.bind_ok, RelayProto.parseEvent, fromJson, h2]
    rfl
  · have h2 : Json.parse ((note ++ [0]).take 9) = none := by decide +kernel
    simp only [RelayProto.parseEvent, fromJson, h2]

/-- With length 0 filters and messages too are read up to a NUL, wherever it is, or beyond the array. -/
theorem C185_zero_refuted (P : Plat) (b : Build) (r : Bytes → Json.Json) (real : Bytes → Int) (cfg : Option Config.Config) :
    (∀ buf, 0 ∉ buf → filter real buf 0 = .ub ∧ message P b r cfg buf 0 = .ub) ∧
    (∃ buf f, filter real buf 0 = .ok f ∧ Filter.parseFilter real (buf.take 0) 0 = .err (.relay .invalidJson)) := by
  refine ⟨fun buf h => ?_, c!"{}" ++ [0], ⟨[], [], [], [], [], [], 0, 0, 0, none⟩, ?_, ?_⟩
  · constructor
    · simp [filter, upTo, text, h]
    · simp [message, upTo, text, h]
  · have h1 : text (c!"{}" ++ [0]) = .ok (c!"{}") := by decide +kernel
    have h2 : Json.parse (c!"{}") = some (.obj []) := by decide +kernel
    simp only [filter, upTo, Nat.lt_irrefl, gt_iff_lt, if_false, h1, Res.bind_ok, Filter.parseFilter, h2]
    rfl
  · have h2 : Json.parse [] = none := by decide +kernel
    simp only [List.take_zero, Filter.parseFilter, Nat.lt_irrefl, gt_iff_lt, if_false, h2]

/-- A filter in the middle of an array, and a text that is followed by a NUL. -/
example : (0 < 11 ∧ 11 ≤ (c!"{\"limit\":5}{\"ids\":[]}").length ∧
    Json.parse ((c!"{\"limit\":5}{\"ids\":[]}").take 11) = some (.obj [(c!"limit", .num (c!"5"))])) ∧ 0 ∉ (c!"{\"kind\":1}") := by
  decide +kernel

end Nostr.Length.Props
