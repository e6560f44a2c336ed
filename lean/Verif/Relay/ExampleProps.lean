import Verif.Relay.Example
import Verif.Relay.Props
import Verif.Event.Props

/-! # Property theorems: C217 (the publishing example) -/

namespace Nostr.Relay.Example.Props
open Nostr Nostr.Event Nostr.Event.Spec Nostr.Event.Props Nostr.Json Nostr.Relay Nostr.Relay.Spec Nostr.Relay.Props Nostr.Relay.Example

theorem tagged_eq {cfg : Option Config.Config} {e : Event} {v : List Bytes} (hv : v ≠ [])
    (h : ∀ c ∈ cfg, e.tags.length < c.maxTags) : tagged cfg e v = { e with tags := e.tags ++ [v] } := by
  have h1 : addTag cfg e v = .ok { e with tags := e.tags ++ [v] } := by
    unfold addTag
    rw [if_neg hv, if_neg]
    cases cfg with
    | none => simp
    | some c => have := h c rfl; simp; omega
  rw [tagged, h1]

/-- The note of the program. -/
def IsNote (key : Bytes) (now : Int) (text : Bytes) (e : Event) : Prop :=
  e.pubkey = key ∧ e.createdAt = now ∧ e.kind = 1 ∧ e.content = some text ∧
    e.tags = [[c!"t", c!"libnostr-c"], [c!"client", c!"libnostr-c-example"]]

theorem draft_note {cfg : Option Config.Config} (hc : ∀ c ∈ cfg, 2 ≤ c.maxTags) (key : Bytes) (now : Int) (text : Bytes) :
    IsNote key now text (draft cfg key now text) := by
  have h1 := tagged_eq (cfg := cfg) (e := { zero with kind := 1, pubkey := key, createdAt := now, content := some text })
    (v := [c!"t", c!"libnostr-c"]) (by simp) (fun c h => by have := hc c h; simp only [zero, List.length_nil]; omega)
  have h2 := tagged_eq (cfg := cfg) (e := { zero with kind := 1, pubkey := key, createdAt := now, content := some text, tags := [[c!"t", c!"libnostr-c"]] })
    (v := [c!"client", c!"libnostr-c-example"]) (by simp) (fun c h => by have := hc c h; simp only [List.length_cons, List.length_nil]; omega)
  unfold draft
  rw [h1]
  simp only [zero, List.nil_append] at h2 ⊢
  rw [h2]
  exact ⟨rfl, rfl, rfl, rfl, rfl⟩

theorem sign_fields {C : Crypto} {b : Build} {rand : Option Bytes} {sk : Bytes} {e e' : Event} (h : sign C b rand sk e = .ok e') :
    C.pubOf sk = some e'.pubkey ∧ e'.createdAt = e.createdAt ∧ e'.kind = e.kind ∧ e'.tags = e.tags ∧ e'.content = e.content ∧
      (∃ t, e'.id = C.sha256 t) ∧ ∃ m r, C.sign sk m r = some e'.sig := by
  unfold sign at h
  split at h
  · simp at h
  · rename_i pk hp
    unfold computeId at h
    rw [Res.bind_eq_ok] at h
    obtain ⟨e1, h1, h⟩ := h
    rw [Res.bind_eq_ok] at h1
    obtain ⟨t, -, h1⟩ := h1
    simp only [Res.ok.injEq] at h1
    subst h1
    split at h
    · simp at h
    · split at h
      · simp at h
      · rename_i s hs
        simp only [Res.ok.injEq] at h
        subst h
        exact ⟨hp, rfl, rfl, rfl, rfl, ⟨t, rfl⟩, _, _, hs⟩

theorem signed_note {C : Crypto} {b : Build} {rand : Option Bytes} {sk key : Bytes} (hp : C.pubOf sk = some key) {now : Int} {text : Bytes}
    {d e : Event} (hd : IsNote key now text d) (h : signed C b rand sk d = .ok e) :
    IsNote key now text e ∧ (∃ t, e.id = C.sha256 t) ∧ (∃ m r, C.sign sk m r = some e.sig) ∧ ∃ d1, sign C b rand sk d1 = .ok e := by
  unfold signed computeId at h
  rw [Res.bind_eq_ok] at h
  obtain ⟨e1, h1, h⟩ := h
  rw [Res.bind_eq_ok] at h1
  obtain ⟨t, -, h1⟩ := h1
  simp only [Res.ok.injEq] at h1
  subst h1
  obtain ⟨a1, a2, a3, a4, a5, a6, a7⟩ := sign_fields h
  rw [hp, Option.some.injEq] at a1
  exact ⟨⟨a1.symm, a2.trans hd.2.1, a3.trans hd.2.2.1, a5.trans hd.2.2.2.1, a4.trans hd.2.2.2.2⟩, a6, a7, _, h⟩

/-- Every relay that is ready is sent the same text, and "sent" is printed where the websocket took it. -/
theorem sendAll_map {b : Build} {e : Event} {t : Bytes} (ht : sendEvent b e = .ok t) (ps : List Peer) :
    sendAll b e ps = .ok (ps.map fun p => if p.ready then some (some t, p.accepts) else none) := by
  induction ps with
  | nil => rfl
  | cons p ps ih =>
    unfold sendAll
    rw [ht, ih]
    cases hr : p.ready <;> simp [hr]

/-- **C217** (part), the note. Whatever the program is given and whatever the relays do: the event it shows has the generated key, the time,
kind 1, the words given and the two tags; it verifies; the id printed is its id; and every relay whose connection stands when the note is sent is given one and the same
text, an EVENT message from which the relay reads exactly this event. The connections counted are those that stood. The words must not contain NUL, which
an argument cannot. -/
theorem C217_note_partial {C : Crypto} (hC : CryptoOK C) (hs : ∀ sk m r s, C.sign sk m r = some s → s.length = 64) (P : Plat)
    {td : Int → Int} {fr : Int → Bytes} {cfg : Option Config.Config} {r : Bytes → Json} {rand : Option Bytes} {sk key : Bytes}
    (hp : C.pubOf sk = some key) (hk : key.length = 32) {now : Int} (hn : now.natAbs < 10 ^ 15) {text : Bytes} (ht : CStr text)
    (hc : ∀ c ∈ cfg, 2 ≤ c.maxTags ∧ text.length ≤ c.maxContent) {ps : List Peer} {rest : List Bytes} {o : Screen} {x : Nat}
    (h : program C P (.cjson td fr) cfg r rand sk key now ps (text :: rest) = .ok (some o, x)) :
    ∃ e, IsNote key now text e ∧ verify C (.cjson td fr) e = .ok () ∧ o.id = Hex.hexEncode e.id ∧ o.content = some text ∧
      o.connected = ps.countP Peer.counted ∧
      ∃ t j, parse t = some (.arr [.str (c!"EVENT"), j]) ∧ fromTree P cfg j = .ok e ∧
        o.sent = if ps.countP Peer.counted = 0 then [] else ps.map fun p => if p.ready then some (some t, p.accepts) else none := by
  rw [program] at h
  split at h
  · simp at h
  · simp at h
  · rename_i e he
    obtain ⟨n, ⟨q, hq⟩, ⟨m, r', hm⟩, d1, h1⟩ := signed_note hp (draft_note (fun c h => (hc c h).1) key now text) he
    obtain ⟨n1, n2, n3, n4, n5⟩ := n
    have hw : WF e := by
      refine ⟨by rw [hq]; exact hC.hash q, by rw [n1]; exact hk, hs _ _ _ _ hm, by omega, by rw [n3]; decide, by rw [n5]; decide, ?_⟩
      rw [Event.text, n4]; exact ht
    obtain ⟨t, j, s1, s2, s3⟩ := C92_publish_partial P cfg td fr hw (by rw [n2]; exact hn) (by
      intro c hcc
      rw [n5, Event.text, n4]
      exact hc c hcc)
    rw [Event.text, n4, Option.getD_some, ← n4] at s3
    refine ⟨e, ⟨n1, n2, n3, n4, n5⟩, (C19_signed_verifies hC h1).1, ?_⟩
    rw [Res.bind_eq_ok] at h
    obtain ⟨q', h2, h⟩ := h
    simp only [Res.ok.injEq, Prod.mk.injEq, Option.some.injEq] at h
    obtain ⟨rfl, -⟩ := h
    unfold talk at h2
    split at h2
    · rename_i h0
      simp only [Res.ok.injEq] at h2
      subst h2
      exact ⟨rfl, n4, h0.symm, t, j, s2, s3, by rw [if_pos h0]⟩
    · rename_i h0
      rw [sendAll_map s1, Res.bind_ok, Res.bind_eq_ok] at h2
      obtain ⟨f, -, h2⟩ := h2
      simp only [Res.ok.injEq] at h2
      subst h2
      exact ⟨rfl, n4, rfl, t, j, s2, s3, by rw [if_neg h0]⟩

/-- The text is an OK message of any kind: an array of at least two values, the first of them the string OK. -/
def OkText (t : Bytes) : Prop := ∃ j js, parse t = some (.arr (.str (c!"OK") :: j :: js))

theorem deliver_sets (P : Plat) (b : Build) (cfg r) (subs : List Sub) (id : Bytes) (ev : Json) :
    (deliver P b cfg r subs id ev).any sets = false := by
  unfold deliver
  split
  · rfl
  · split
    · split <;> rfl
    · rfl

theorem dispatch_sets (P : Plat) (b : Build) (cfg r) (subs : List Sub) (t : Bytes) :
    (dispatch P b cfg r true subs t).2.any sets = true ↔ OkText t := by
  unfold dispatch OkText
  split
  · rename_i ty j1 js hp
    rw [hp]
    have key : (∃ j js', some (Json.arr (.str ty :: j1 :: js)) = some (.arr (.str (c!"OK") :: j :: js'))) ↔ ty = c!"OK" := by
      constructor
      · rintro ⟨j, js', h⟩
        simp only [Option.some.injEq, Json.arr.injEq, List.cons.injEq, Json.str.injEq] at h
        exact h.1
      · rintro rfl; exact ⟨_, _, rfl⟩
    rw [key]
    split
    · rename_i h
      have : ty ≠ c!"OK" := by rw [h.1]; decide
      simp only [this, iff_false, Bool.not_eq_true]
      split
      · exact deliver_sets ..
      · rfl
    · split
      · simp [notify, sets]
      · simp [notify, sets]
  · rename_i hn
    simp only [List.any_nil, Bool.false_eq_true, false_iff]
    rintro ⟨j, js, h⟩
    exact hn _ _ _ h

theorem calls_sets (P : Plat) (b : Build) (cfg r) (ts : List Bytes) : ∀ subs : List Sub,
    (calls P b cfg r subs ts).any sets = true ↔ ∃ t ∈ ts, OkText t := by
  induction ts with
  | nil => intro subs; simp [calls]
  | cons t ts ih =>
    intro subs
    rw [calls, List.any_append, Bool.or_eq_true, dispatch_sets, ih]
    simp

theorem flag_spec (P : Plat) (b : Build) (cfg r) (ps : List Peer) : ∃ f, flag P b cfg r ps = .ok f ∧
    (f = true ↔ ∃ p ∈ ps, ∃ st ms, receiveAll Rx.new p.chunks = .ok (st, ms) ∧ ∃ t ∈ ms, OkText t) := by
  induction ps with
  | nil => exact ⟨false, rfl, by simp⟩
  | cons p ps ih =>
    obtain ⟨f, h1, h2⟩ := ih
    obtain ⟨st, ms, hr, -⟩ := C34_bounds p.chunks
    refine ⟨(calls P b cfg r [] ms).any sets || f, by rw [flag, hr, Res.bind_ok, h1, Res.bind_ok], ?_⟩
    rw [Bool.or_eq_true, calls_sets, h2]
    constructor
    · rintro (h | ⟨p', hp', h⟩)
      · exact ⟨p, List.mem_cons_self .., st, ms, hr, h⟩
      · exact ⟨p', List.mem_cons_of_mem _ hp', h⟩
    · rintro ⟨p', hp', st', ms', hr', h⟩
      rcases List.mem_cons.1 hp' with rfl | hp'
      · rw [hr, Res.ok.injEq, Prod.mk.injEq] at hr'
        rw [hr'.2]; exact .inl h
      · exact .inr ⟨p', hp', st', ms', hr', h⟩

/-- **C217, what "published" means.** The program says that the note has been published exactly when a connection was counted and some relay, before or after the
sending, has sent some OK message, whatever its event id and whether it accepts or refuses. -/
theorem C217_published_iff {C : Crypto} {P : Plat} {b : Build} {cfg : Option Config.Config} {r : Bytes → Json} {rand : Option Bytes}
    {sk key : Bytes} {now : Int} {ps : List Peer} {args : List Bytes} {o : Screen} {x : Nat}
    (h : program C P b cfg r rand sk key now ps args = .ok (some o, x)) :
    o.published = some true ↔ (∃ p ∈ ps, p.counted = true) ∧
      ∃ p ∈ ps, ∃ st ms, receiveAll Rx.new p.chunks = .ok (st, ms) ∧ ∃ t ∈ ms, OkText t := by
  obtain ⟨f, h1, h2⟩ := flag_spec P b cfg r ps
  cases args with
  | nil => simp [program] at h
  | cons text rest =>
    rw [program] at h
    split at h
    · simp at h
    · simp at h
    · rw [Res.bind_eq_ok] at h
      obtain ⟨q, h3, h⟩ := h
      simp only [Res.ok.injEq, Prod.mk.injEq, Option.some.injEq] at h
      obtain ⟨rfl, -⟩ := h
      unfold talk at h3
      split at h3
      · rename_i h0
        simp only [Res.ok.injEq] at h3
        subst h3
        simp only [reduceCtorEq, false_iff, not_and]
        rintro ⟨p, hp, hc⟩
        exact absurd hc (List.countP_eq_zero.1 h0 p hp)
      · rename_i h0
        rw [h1, Res.bind_eq_ok] at h3
        obtain ⟨l, -, h3⟩ := h3
        simp only [Res.bind_ok, Res.ok.injEq] at h3
        subst h3
        rw [Option.some.injEq, h2]
        refine ⟨fun h => ⟨?_, h⟩, fun h => h.2⟩
        obtain ⟨p, hp, hc⟩ := List.countP_pos_iff.1 (Nat.pos_of_ne_zero h0)
        exact ⟨p, hp, hc⟩

/-- **C217, a confirmation is noticed.** If a relay's answers, in any chunks, contain an OK message, and a connection was counted, the program says
that the note has been published. -/
theorem C217_confirmed {C : Crypto} {P : Plat} {b : Build} {cfg : Option Config.Config} {r : Bytes → Json} {rand : Option Bytes}
    {sk key : Bytes} {now : Int} {ps : List Peer} {args : List Bytes} {o : Screen} {x : Nat}
    (h : program C P b cfg r rand sk key now ps args = .ok (some o, x)) {p : Peer} (hp : p ∈ ps) (hc : p.counted = true)
    {ms : List Bytes} {s : Bytes} (hst : Stream ms s) {longest chunk : Nat} (hL : ∀ m ∈ ms, m.length ≤ longest)
    (hfit : longest + chunk + 1024 ≤ 10485760) {cs : List Bytes} (hcs : cs.flatten = s) (hC : ∀ c ∈ cs, c.length ≤ chunk)
    (hch : p.chunks = cs.map fun c => (true, c)) {t : Bytes} (ht : t ∈ ms) (hok : OkText t) : o.published = some true := by
  obtain ⟨st, h1, -⟩ := C33_exact hst hL hfit cs hcs hC
  exact (C217_published_iff h).2 ⟨⟨p, hp, hc⟩, p, hp, st, ms, by rw [hch]; exact h1, t, ht, hok⟩

/-- **C217, the status.** A run that gets to the relays ends with status 0, whether or not the note was published. -/
theorem C217_status {C : Crypto} {P : Plat} {b : Build} {cfg : Option Config.Config} {r : Bytes → Json} {rand : Option Bytes}
    {sk key : Bytes} {now : Int} {ps : List Peer} {args : List Bytes} {o : Screen} {x : Nat}
    (h : program C P b cfg r rand sk key now ps args = .ok (some o, x)) : x = 0 := by
  cases args with
  | nil => simp [program] at h
  | cons text rest =>
    rw [program] at h
    split at h
    · simp at h
    · simp at h
    · rw [Res.bind_eq_ok] at h
      obtain ⟨q, h3, h⟩ := h
      simp only [Res.ok.injEq, Prod.mk.injEq, Option.some.injEq] at h
      obtain ⟨-, rfl⟩ := h
      unfold talk at h3
      split at h3
      · simp only [Res.ok.injEq] at h3; subst h3; rfl
      · rw [Res.bind_eq_ok] at h3
        obtain ⟨l, -, h3⟩ := h3
        rw [Res.bind_eq_ok] at h3
        obtain ⟨f, -, h3⟩ := h3
        simp only [Res.ok.injEq] at h3; subst h3; rfl

/-! ## Concrete runs -/

/-- A scheme with 64-byte signatures: the hash is the beginning of the text. -/
def toy : Crypto where
  sha256 t := (t ++ List.replicate 32 0).take 32
  pubOf sk := some sk
  sign _ _ _ := some (List.replicate 64 1)
  validPub _ := true
  verify _ _ s := s == List.replicate 64 1

theorem toy_ok : CryptoOK toy ∧ ∀ sk m r s, toy.sign sk m r = some s → s.length = 64 :=
  ⟨⟨fun t => by simp [toy], fun _ _ _ => rfl, fun _ _ _ _ _ _ h => by simp only [toy, Option.some.injEq] at h; subst h; rfl⟩,
    fun _ _ _ _ h => by simp only [toy, Option.some.injEq] at h; subst h; rfl⟩

/-- A run of the program with the words "hi". -/
def run (ps : List Peer) : Res (Option Screen × Nat) :=
  program toy ⟨fun _ => 0, false⟩ (.cjson id fun _ => []) none (fun t => .num t) (some []) (List.replicate 32 7) (List.replicate 32 7) 5 ps [c!"hi"]

/-- The id of its note. -/
def runId : Bytes := Hex.hexEncode (c!"[0,\"" ++ Hex.hexEncode (List.replicate 14 7))

/-- A connected relay that sends these bytes. -/
def says (t : Bytes) : Peer := ⟨true, true, true, [(true, t)]⟩

/-- The only answer is a refusal of this very note. -/
def refusal : Bytes := c!"[\"OK\",\"" ++ runId ++ c!"\",false,\"blocked: spam\"]"

/-- The only answer is a refusal of another event. -/
def other : Bytes := c!"[\"OK\",\"00\",false,\"invalid: bad id\"]"

def shows (o : Res (Option Screen × Nat)) (q : Screen → Bool) : Bool :=
  match o with
  | .ok (some s, 0) => q s
  | _ => false

/-- **C217 fails**: the relay refuses the note, and the program says that it has been published. -/
theorem C217_refused_refuted : ∃ o, run [says refusal] = .ok (some o, 0) ∧ o.id = runId ∧ o.published = some true := by
  have h : shows (run [says refusal]) (fun s => s.id == runId && s.published == some true) = true := by decide +kernel
  unfold shows at h
  split at h
  · rename_i s e; exact ⟨s, e, by simpa using h⟩
  · simp at h

/-- **C217 fails**: the websocket does not take the note, nothing was sent, and a message about another event makes the program say that the note has
been published. -/
theorem C217_unsent_refuted : ∃ o, run [{ says other with accepts := false }] = .ok (some o, 0) ∧ o.published = some true ∧
    ∀ y ∈ o.sent, ∃ t, y = some (t, false) := by
  have h : shows (run [{ says other with accepts := false }]) (fun s => (s.published == some true) &&
    s.sent.all fun y => match y with | some (_, false) => true | _ => false) = true := by decide +kernel
  unfold shows at h
  split at h
  · rename_i s e
    rw [Bool.and_eq_true, List.all_eq_true] at h
    refine ⟨s, e, by simpa using h.1, fun y hy => ?_⟩
    have := h.2 y hy
    split at this
    · exact ⟨_, rfl⟩
    · simp at this
  · simp at h

/-- **C217 fails**: without any relay the program sends nothing and still ends with status 0. -/
theorem C217_status_refuted : ∃ o, run [⟨false, false, false, []⟩] = .ok (some o, 0) ∧ o.published = none ∧ o.sent = [] := by
  have h : shows (run [⟨false, false, false, []⟩]) (fun s => s.published == none && s.sent == []) = true := by decide +kernel
  unfold shows at h
  split at h
  · rename_i s e; exact ⟨s, e, by simpa using h⟩
  · simp at h

/-! Non-vacuity: a run with a proper confirmation, and one without an answer. -/

example : shows (run [says (c!"[\"OK\",\"" ++ runId ++ c!"\",true,\"\"]"), ⟨false, false, false, []⟩])
    (fun s => s.published == some true && s.connected == 1) = true := by decide +kernel
example : shows (run [says (c!"[\"NOTICE\",\"OK\"]")]) (fun s => s.published == some false) = true := by decide +kernel
example : OkText refusal ∧ OkText other := ⟨⟨.str runId, [.fls, .str (c!"blocked: spam")], by decide +kernel⟩,
  ⟨.str (c!"00"), [.fls, .str (c!"invalid: bad id")], by decide +kernel⟩⟩

end Nostr.Relay.Example.Props
