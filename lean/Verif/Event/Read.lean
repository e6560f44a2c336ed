import Verif.Event.Props
import Verif.Event.JsonLemmas
import Verif.Json.Says
import Verif.Hex.Lemmas

/-! # Property theorems: C116 - reading events from JSON -/

namespace Nostr.Event.Props
open Nostr Nostr.Event Nostr.Json Nostr.Hex.Spec

/-- Specification: the object with members `m` is the NIP-01 JSON form of the event `e`: the seven members, in any
order and among any others; hex in either case. -/
structure Nip01 (m : List (Bytes × Json)) (e : Event) : Prop where
  id : ∃ s, Says m (c!"id") (.str s) ∧ lowerHex s = hexText e.id ∧ e.id.length = 32
  pubkey : ∃ s, Says m (c!"pubkey") (.str s) ∧ lowerHex s = hexText e.pubkey ∧ e.pubkey.length = 32
  createdAt : Says m (c!"created_at") (.num (Num.decInt e.createdAt))
  kind : Says m (c!"kind") (.num (Num.decNat e.kind))
  range : e.kind < 65536
  tags : Says m (c!"tags") (.arr (e.tags.map fun t => .arr (t.map .str)))
  content : ∃ c, e.content = some c ∧ Says m (c!"content") (.str c)
  sig : ∃ s, Says m (c!"sig") (.str s) ∧ lowerHex s = hexText e.sig ∧ e.sig.length = 64

theorem hexToBytes_lower (lax : Bool) {s b : Bytes} {n : Nat} (h : lowerHex s = hexText b) (hn : b.length = n) :
    hexToBytes lax s n = some b := by
  have hl := congrArg List.length h
  rw [Hex.lowerHex_length, Hex.hexText_length] at hl
  unfold hexToBytes
  rw [if_neg (by omega), Hex.keyLoop_digits lax n _ _ (by omega) ((Hex.pairs_iff _ _ (by omega)).2 h)]

theorem read_tree (P : Plat) (cfg : Option Config.Config) {m : List (Bytes × Json)} {e : Event} (h : Nip01 m e)
    (ht : e.createdAt.natAbs < 10 ^ 15) (hne : ∀ t ∈ e.tags, t ≠ [])
    (hc : ∀ c ∈ cfg, e.tags.length ≤ c.maxTags ∧ e.text.length ≤ c.maxContent) :
    fromTree P cfg (.obj m) = .ok e := by
  obtain ⟨s1, a1, b1, l1⟩ := h.id
  obtain ⟨s2, a2, b2, l2⟩ := h.pubkey
  obtain ⟨s3, a3, b3, l3⟩ := h.sig
  obtain ⟨cn, ec, ac⟩ := h.content
  have n1 : numFields P (.obj m) = (e.createdAt, e.kind) := by
    unfold numFields
    rw [get_says h.createdAt, get_says h.kind]
    simp only [Option.bind_some, asNum]
    rw [int64_decInt P.real ht, valueint_decNat P.real h.range]
  have c1 : contentField cfg (.obj m) = .ok e.content := by
    unfold contentField
    rw [get_says ac]
    simp only [Option.bind_some, asStr]
    rw [if_neg, ec]
    cases cfg with
    | none => simp
    | some c =>
      have := (hc c rfl).2
      simp only [Event.text, ec, Option.getD_some] at this
      simp only [Option.any_some, decide_eq_true_eq]
      omega
  have t1 : ∀ x : Event, x.tags = [] → tagsField cfg (.obj m) x = .ok { x with tags := e.tags } := by
    intro x hx
    unfold tagsField
    rw [get_says h.tags]
    simp only [Option.bind_some, asArr]
    rw [if_neg, addTags_back cfg e.tags x hne]
    · simp [hx]
    · intro c hcc
      have := (hc c hcc).1
      simpa [hx] using this
    · cases cfg with
      | none => simp
      | some c =>
        have := (hc c rfl).1
        simp only [Option.any_some, decide_eq_true_eq, List.length_map]
        omega
  unfold fromTree
  simp only [hexField, get_says a1, get_says a2, get_says a3, Option.bind_some, asStr,
    hexToBytes_lower P.lax0x b1 l1, hexToBytes_lower P.lax0x b2 l2, hexToBytes_lower P.lax0x b3 l3, Res.bind_ok, c1, n1]
  rw [t1 _ rfl, Res.bind_ok]

theorem keyLoop_length (lax : Bool) : ∀ (k : Nat) (s b : Bytes), Hex.keyLoop lax k s = .ok b → b.length = k := by
  intro k
  induction k with
  | zero => intro s b h; cases h; rfl
  | succ k ih =>
    intro s b h
    unfold Hex.keyLoop at h
    split at h
    · cases h
    · rw [Res.bind_eq_ok] at h
      obtain ⟨r, h1, h⟩ := h
      cases h
      rw [List.length_cons, ih _ _ h1]

theorem addTags_keeps (cfg : Option Config.Config) : ∀ (js : List Json) (e e' : Event), addTags cfg e js = .ok e' →
    e'.id = e.id ∧ e'.pubkey = e.pubkey ∧ e'.kind = e.kind := by
  intro js
  induction js with
  | nil => intro e e' h; cases h; exact ⟨rfl, rfl, rfl⟩
  | cons j js ih =>
    intro e e' h
    unfold addTags at h
    split at h
    · split at h
      · rename_i h1
        unfold addTag at h1
        split at h1
        · cases h1
        · split at h1
          · cases h1
          · cases h1
            have := ih _ _ h
            exact this
      · cases h
      · cases h
    · exact ih _ _ h

theorem tagsField_keeps {cfg : Option Config.Config} {root : Json} {e e' : Event} (h : tagsField cfg root e = .ok e') :
    e'.id = e.id ∧ e'.pubkey = e.pubkey ∧ e'.kind = e.kind := by
  unfold tagsField at h
  split at h
  · cases h; exact ⟨rfl, rfl, rfl⟩
  · split at h
    · cases h
    · exact addTags_keeps _ _ _ _ h

/-- **C116** (partial: acceptance only; see the `_refuted` theorems for what else is read): the JSON text of an
object that has the seven NIP-01 members - in any order, among other members, printed compactly or with white space,
hex in either case - is read as exactly the event they describe, provided the configured limits allow it. -/
theorem C116_read_partial (P : Plat) (td : Int → Int) (fr : Int → Bytes) (cfg : Option Config.Config) (fmt : Bool)
    (m : List (Bytes × Json)) (e : Event) (hg : Good (.obj m)) (hh : height (.obj m) ≤ nestingLimit)
    (h : Nip01 m e) (ht : e.createdAt.natAbs < 10 ^ 15) (hne : ∀ t ∈ e.tags, t ≠ [])
    (hc : ∀ c ∈ cfg, e.tags.length ≤ c.maxTags ∧ e.text.length ≤ c.maxContent) :
    fromJson P (.cjson td fr) cfg (print fmt 0 (.obj m)) = .ok e := by
  unfold fromJson
  have hp : parse (print fmt 0 (.obj m)) = some (.obj m) := by
    have := parse_print fmt 0 (.obj m) hg hh [] (by intro c hc; simp at hc)
    rwa [List.append_nil] at this
  simp only [hp]
  exact read_tree P cfg h ht hne hc

/-- **C116**: whatever the text, an event read from it has an id, a key and a signature of the right size, and a
kind that fits; a text whose object has an `id`, `pubkey` or `sig` string of any other length than 64, 64 and 128
is not read. -/
theorem C116_lengths (P : Plat) (b : Build) (cfg : Option Config.Config) (s : Bytes) (e : Event)
    (h : fromJson P b cfg s = .ok e) :
    (e.id.length = 32 ∧ e.pubkey.length = 32 ∧ e.sig.length = 64 ∧ e.kind < 65536) ∧
    ∀ root, parse s = some root →
      (∀ t, get root (c!"id") = some (.str t) → t.length = 64) ∧
      (∀ t, get root (c!"pubkey") = some (.str t) → t.length = 64) ∧
      (∀ t, get root (c!"sig") = some (.str t) → t.length = 128) := by
  have hx : ∀ {root key n old v}, old.length = n → hexField P root key n old = .ok v → v.length = n ∧
      ∀ t, get root key = some (.str t) → t.length = n * 2 := by
    intro root key n old v ho h
    unfold hexField at h
    cases hg : (get root key).bind asStr with
    | none =>
      simp only [hg] at h
      cases h
      refine ⟨ho, ?_⟩
      intro t ht
      simp [ht, asStr] at hg
    | some t0 =>
      simp only [hg] at h
      have hlen : t0.length = n * 2 ∧ v.length = n := by
        unfold hexToBytes at h
        by_cases hl : t0.length = n * 2
        · rw [if_neg (by omega)] at h
          refine ⟨hl, ?_⟩
          cases hk : Hex.keyLoop P.lax0x n t0 with
          | ok w =>
            simp only [hk] at h
            cases h
            exact keyLoop_length _ _ _ _ hk
          | err _ => simp [hk] at h
          | ub => simp [hk] at h
        · rw [if_pos (by omega)] at h
          cases h
      refine ⟨hlen.2, ?_⟩
      intro t ht
      simp only [ht, Option.bind_some, asStr, Option.some.injEq] at hg
      rw [hg]; exact hlen.1
  unfold fromJson at h
  cases b with
  | plain => cases h
  | cjson td fr =>
    simp only at h
    cases hp : parse s with
    | none => simp [hp] at h
    | some root =>
      simp only [hp] at h
      unfold fromTree at h
      obtain ⟨i, h1, h⟩ := Res.bind_eq_ok.1 h
      obtain ⟨k, h2, h⟩ := Res.bind_eq_ok.1 h
      obtain ⟨cn, h3, h⟩ := Res.bind_eq_ok.1 h
      obtain ⟨e1, h4, h⟩ := Res.bind_eq_ok.1 h
      obtain ⟨sg, h5, h⟩ := Res.bind_eq_ok.1 h
      have a1 := hx (by simp [zero]) h1
      have a2 := hx (by simp [zero]) h2
      have a5 := hx (by simp [zero]) h5
      have hkind : (numFields P root).2 < 65536 := by
        unfold numFields
        simp only
        split <;> omega
      have he := tagsField_keeps h4
      cases h
      refine ⟨⟨?_, ?_, a5.1, ?_⟩, ?_⟩
      · simp only [he.1]; exact a1.1
      · simp only [he.2.1]; exact a2.1
      · simp only [he.2.2]; exact hkind
      · intro r hr
        cases hr
        exact ⟨a1.2, a2.2, a5.2⟩

/-- **C116** refuted: a kind outside 0..65535 is read as another kind (here 65537 as kind 1). -/
theorem C116_kind_refuted (P : Plat) (td : Int → Int) (fr : Int → Bytes) :
    fromJson P (.cjson td fr) none (c!"{\"kind\":65537}") = .ok { zero with kind := 1 } := by
  have h : parse (c!"{\"kind\":65537}") = some (.obj [(c!"kind", .num (c!"65537"))]) := by decide +kernel
  simp only [fromJson, h]
  rfl

/-- **C116** refuted: no member is required; the empty object is read as an event of kind 0 without id, key and
signature. -/
theorem C116_missing_refuted (P : Plat) (td : Int → Int) (fr : Int → Bytes) :
    fromJson P (.cjson td fr) none (c!"{}") = .ok zero := by
  have h : parse (c!"{}") = some (.obj []) := by decide +kernel
  simp only [fromJson, h]
  rfl

/-- **C116** refuted: tag values that are no strings are read as empty strings, and tags that are no arrays are
left out: two texts with different tags are read as one event. -/
theorem C116_tags_refuted (P : Plat) (td : Int → Int) (fr : Int → Bytes) :
    fromJson P (.cjson td fr) none (c!"{\"tags\":[[\"e\",7],5]}") =
      fromJson P (.cjson td fr) none (c!"{\"tags\":[[\"e\",\"\"]]}") ∧
    fromJson P (.cjson td fr) none (c!"{\"tags\":[[\"e\",7],5]}") = .ok { zero with tags := [[c!"e", []]] } := by
  have h : parse (c!"{\"tags\":[[\"e\",7],5]}") =
      some (.obj [(c!"tags", .arr [.arr [.str (c!"e"), .num (c!"7")], .num (c!"5")])]) := by decide +kernel
  have h2 : parse (c!"{\"tags\":[[\"e\",\"\"]]}") =
      some (.obj [(c!"tags", .arr [.arr [.str (c!"e"), .str []]])]) := by decide +kernel
  simp only [fromJson, h, h2]
  exact ⟨rfl, rfl⟩

/-- **C116** refuted: an id that is not hex is read (here 32 times "-1" as 32 bytes 0xff). -/
theorem C116_hex_refuted (P : Plat) (td : Int → Int) (fr : Int → Bytes) :
    fromJson P (.cjson td fr) none (c!"{\"id\":\"" ++ (List.replicate 32 (c!"-1")).flatten ++ c!"\"}") =
      .ok { zero with id := List.replicate 32 0xff } := by
  have h : parse (c!"{\"id\":\"" ++ (List.replicate 32 (c!"-1")).flatten ++ c!"\"}") =
      some (.obj [(c!"id", .str (List.replicate 32 (c!"-1")).flatten)]) := by decide +kernel
  have hb : hexToBytes P.lax0x (List.replicate 32 (c!"-1")).flatten 32 = some (List.replicate 32 0xff) := by
    generalize P.lax0x = lax
    cases lax <;> decide +kernel
  have g : get (.obj [(c!"id", .str (List.replicate 32 (c!"-1")).flatten)]) (c!"id") =
      some (.str (List.replicate 32 (c!"-1")).flatten) := rfl
  simp only [fromJson, h, fromTree, hexField, g, Option.bind_some, asStr, hb]
  rfl

/-- Non-vacuity of C116: members in another order, one unknown member, upper-case hex. -/
def scrambled : List (Bytes × Json) :=
  [(c!"sig", .str ((List.replicate 64 (c!"0A")).flatten)), (c!"seen", .arr [.str (c!"wss://r")]),
   (c!"content", .str (c!"hi")), (c!"kind", .num (c!"1")), (c!"tags", .arr [.arr [.str (c!"t"), .str (c!"x")]]),
   (c!"created_at", .num (c!"-5")), (c!"pubkey", .str ((List.replicate 32 (c!"bB")).flatten)),
   (c!"id", .str ((List.replicate 32 (c!"01")).flatten))]

example : Nip01 scrambled ⟨List.replicate 32 1, List.replicate 32 0xbb, -5, 1, [[c!"t", c!"x"]], some (c!"hi"),
    List.replicate 64 10⟩ where
  id := ⟨_, (by decide +kernel : Says scrambled (c!"id") (.str ((List.replicate 32 (c!"01")).flatten))), by decide +kernel, rfl⟩
  pubkey := ⟨_, (by decide +kernel : Says scrambled (c!"pubkey") (.str ((List.replicate 32 (c!"bB")).flatten))), by decide +kernel, rfl⟩
  createdAt := by decide +kernel
  kind := by decide +kernel
  range := by decide
  tags := by decide +kernel
  content := ⟨_, rfl, by decide +kernel⟩
  sig := ⟨_, (by decide +kernel : Says scrambled (c!"sig") (.str ((List.replicate 64 (c!"0A")).flatten))), by decide +kernel, rfl⟩

end Nostr.Event.Props
