import Verif.Nip10.Model
import Verif.Nip10.Spec
import Verif.Event.Props

/-! # Property theorems: C52 -/

namespace Nostr.Nip10.Props
open Nostr Nostr.Nip10 Nostr.Event Spec

theorem parseE_none {t : List Bytes} (h : ¬ IsE t) : parseE t = none := by
  unfold parseE
  split
  · rename_i name id rest
    split
    · rename_i hn
      exact absurd ⟨id, rest, by rw [hn]⟩ h
    · rfl
  · rfl

theorem parseE_some {t : List Bytes} {i : Info} (h : parseE t = some i) :
    ∃ id rest, t = c!"e" :: id :: rest ∧ i = ⟨id.take 64, (hint t).take 255, (rest.getD 1 []).take 15⟩ := by
  unfold parseE at h
  split at h
  · rename_i name id rest
    split at h
    · rename_i hn
      simp only [Option.some.injEq] at h
      refine ⟨id, rest, by rw [hn], ?_⟩
      rw [← h]
      cases rest <;> rfl
    · simp at h
  · simp at h

theorem parseE_e (id : Bytes) (rest : List Bytes) :
    parseE (c!"e" :: id :: rest) = some ⟨id.take 64, (hint (c!"e" :: id :: rest)).take 255, (rest.getD 1 []).take 15⟩ := by
  cases rest <;> simp [parseE, hint]

/-- A marker shorter than the internal buffer is compared exactly. -/
theorem marker_iff {t : List Bytes} {i : Info} {m : Bytes} (hm : m ≠ []) (hl : m.length < 15) (h : parseE t = some i) :
    i.marker = m ↔ Marked m t := by
  obtain ⟨id, rest, rfl, rfl⟩ := parseE_some h
  simp only
  constructor
  · intro h
    match rest, h with
    | [], h => simp at h; exact absurd h hm
    | [_], h => simp at h; exact absurd h hm
    | relay :: mk :: rest, h =>
      simp only [List.getD_cons_succ, List.getD_cons_zero] at h
      have : mk.length < 15 := by
        have := congrArg List.length h
        rw [List.length_take] at this
        omega
      rw [List.take_of_length_le (by omega)] at h
      exact ⟨id, relay, rest, by rw [h]⟩
  · rintro ⟨id', relay, rest', h⟩
    simp only [List.cons.injEq, true_and] at h
    rw [h.2]
    simp only [List.getD_cons_succ, List.getD_cons_zero]
    exact List.take_of_length_le (by omega)

theorem collect_append (a b : List (List Bytes)) : collect (a ++ b) = collect a ++ collect b := List.filterMap_append
theorem collect_mem {ts : List (List Bytes)} {i : Info} (h : i ∈ collect ts) : ∃ t ∈ ts, parseE t = some i := by
  simpa [collect] using h

theorem find_none {ts : List (List Bytes)} {m : Bytes} (hm : m ≠ []) (hl : m.length < 15) (h : ∀ t ∈ ts, ¬ Marked m t) :
    (collect ts).find? (fun x => x.marker == m) = none := by
  rw [List.find?_eq_none]
  intro i hi
  obtain ⟨t, ht, hp⟩ := collect_mem hi
  simp only [beq_iff_eq]
  exact fun hc => h t ht ((marker_iff hm hl hp).1 hc)

theorem copyOut_fits {id relay mk : Bytes} {n r : Nat} (h : Fits id relay n r) :
    copyOut ⟨id.take 64, relay.take 255, mk⟩ n r = (id, relay) := by
  obtain ⟨h1, h2, h3, h4⟩ := h
  unfold copyOut
  simp only
  rw [List.take_of_length_le h1, List.take_of_length_le h2, List.take_of_length_le (by omega)]
  by_cases h0 : relay = []
  · simp [h0]
  · rw [if_pos ⟨by omega, h0⟩, List.take_of_length_le (by omega)]

theorem find_marked {e : Event} {m : Bytes} (last : Bool) (hm : m ≠ []) (hl : m.length < 15)
    {pre post : List (List Bytes)} {id relay : Bytes} {rest : List Bytes} {n r : Nat}
    (ht : e.tags = pre ++ (c!"e" :: id :: relay :: m :: rest) :: post) (hno : ∀ t ∈ pre, ¬ Marked m t)
    (hf : Fits id relay n r) : findByMarker e m last n r = .ok (id, relay) := by
  unfold findByMarker
  rw [if_neg (by have := hf.2.2.1; omega)]
  have hc : collect e.tags = collect pre ++ ⟨id.take 64, relay.take 255, m.take 15⟩ :: collect post := by
    rw [ht, collect_append]
    congr 1
  have hfind : (collect e.tags).find? (fun x => x.marker == m) = some ⟨id.take 64, relay.take 255, m.take 15⟩ := by
    rw [hc, List.find?_append, find_none hm hl hno, Option.none_or, List.find?_cons_of_pos]
    simp only [beq_iff_eq]
    exact List.take_of_length_le (by omega)
  split
  · rename_i h0
    rw [h0] at hfind
    simp at hfind
  · rename_i i is h0
    rw [h0] at hfind
    rw [hfind]
    simp only
    rw [copyOut_fits hf]

/-- **C52** (markers): the root and reply lookups return id and relay hint of the first tag carrying the
marker `root` or `reply`, whatever else the event contains. -/
theorem C52_marked (e : Event) (pre post : List (List Bytes)) (id relay : Bytes) (rest : List Bytes) (n r : Nat)
    (hf : Fits id relay n r) :
    (e.tags = pre ++ (c!"e" :: id :: relay :: c!"root" :: rest) :: post → (∀ t ∈ pre, ¬ Marked (c!"root") t) →
      getRootId e n r = .ok (id, relay)) ∧
    (e.tags = pre ++ (c!"e" :: id :: relay :: c!"reply" :: rest) :: post → (∀ t ∈ pre, ¬ Marked (c!"reply") t) →
      getReplyId e n r = .ok (id, relay)) :=
  ⟨fun h1 h2 => find_marked _ (by decide) (by decide) h1 h2 hf,
   fun h1 h2 => find_marked _ (by decide) (by decide) h1 h2 hf⟩

theorem none_collect {ts : List (List Bytes)} (h : ∀ t ∈ ts, ¬ IsE t) : collect ts = [] := by
  unfold collect
  rw [List.filterMap_eq_nil_iff]
  exact fun t ht => parseE_none (h t ht)

theorem find_unmarked {e : Event} {m : Bytes} (last : Bool) (hm : m ≠ []) (hl : m.length < 15)
    {pre post : List (List Bytes)} {id : Bytes} {rest : List Bytes} {n r : Nat}
    (ht : e.tags = pre ++ (c!"e" :: id :: rest) :: post) (hno : ∀ t ∈ e.tags, ¬ Marked m t)
    (hp : if last then ∀ t ∈ post, ¬ IsE t else ∀ t ∈ pre, ¬ IsE t)
    (hf : Fits id (hint (c!"e" :: id :: rest)) n r) :
    findByMarker e m last n r = .ok (id, hint (c!"e" :: id :: rest)) := by
  unfold findByMarker
  rw [if_neg (by have := hf.2.2.1; omega)]
  have hc : collect e.tags = collect pre ++ ⟨id.take 64, (hint (c!"e" :: id :: rest)).take 255, (rest.getD 1 []).take 15⟩ :: collect post := by
    rw [ht, collect_append]
    congr 1
    show List.filterMap _ _ = _
    rw [List.filterMap_cons, parseE_e]
    rfl
  have hfind := find_none hm hl hno
  split
  · rename_i h0
    rw [h0] at hc
    simp at hc
  · rename_i i is h0
    rw [h0] at hfind
    rw [hfind]
    simp only
    rw [h0] at hc
    have hx : (if last = true then (i :: is).getLast (by simp) else i) =
        ⟨id.take 64, (hint (c!"e" :: id :: rest)).take 255, (rest.getD 1 []).take 15⟩ := by
      cases last with
      | true =>
        simp only [if_true] at hp ⊢
        rw [none_collect hp] at hc
        simp [hc]
      | false =>
        simp only [Bool.false_eq_true, if_false] at hp ⊢
        rw [none_collect hp] at hc
        simp only [List.nil_append, List.cons.injEq] at hc
        exact hc.1
    rw [hx, copyOut_fits hf]

/-- **C52** (positions): without a tag carrying the marker, the root lookup returns the first event
reference and the reply lookup the last one. -/
theorem C52_unmarked (e : Event) (pre post : List (List Bytes)) (id : Bytes) (rest : List Bytes) (n r : Nat)
    (ht : e.tags = pre ++ (c!"e" :: id :: rest) :: post) (hf : Fits id (hint (c!"e" :: id :: rest)) n r) :
    ((∀ t ∈ e.tags, ¬ Marked (c!"root") t) → (∀ t ∈ pre, ¬ IsE t) →
      getRootId e n r = .ok (id, hint (c!"e" :: id :: rest))) ∧
    ((∀ t ∈ e.tags, ¬ Marked (c!"reply") t) → (∀ t ∈ post, ¬ IsE t) →
      getReplyId e n r = .ok (id, hint (c!"e" :: id :: rest))) :=
  ⟨fun h1 h2 => find_unmarked false (by decide) (by decide) ht h1 h2 hf,
   fun h1 h2 => find_unmarked true (by decide) (by decide) ht h1 h2 hf⟩

/-- **C52** (no references): both lookups report that there is nothing, and only then. -/
theorem C52_none (e : Event) (n r : Nat) (hn : 65 ≤ n) :
    (getRootId e n r = .err .notFound ↔ ∀ t ∈ e.tags, ¬ IsE t) ∧
    (getReplyId e n r = .err .notFound ↔ ∀ t ∈ e.tags, ¬ IsE t) := by
  have key : ∀ m last, findByMarker e m last n r = .err .notFound ↔ ∀ t ∈ e.tags, ¬ IsE t := by
    intro m last
    unfold findByMarker
    rw [if_neg (by omega)]
    constructor
    · intro h
      split at h
      · rename_i h0
        intro t ht ⟨id, rest, hte⟩
        have : parseE t ≠ none := by rw [hte, parseE_e]; simp
        exact this ((List.filterMap_eq_nil_iff.1 h0) t ht)
      · split at h <;> simp at h
    · intro h
      rw [none_collect h]
  exact ⟨key _ _, key _ _⟩

theorem addTag_ok {cfg : Option Config.Config} {e e1 : Event} {v : List Bytes} (h : addTag cfg e v = .ok e1) :
    e1 = { e with tags := e.tags ++ [v] } := by
  unfold addTag at h
  split at h
  · cases h
  · split at h
    · cases h
    · simpa using h.symm

theorem addTag_noub (cfg : Option Config.Config) (e : Event) (v : List Bytes) : addTag cfg e v ≠ .ub := by
  unfold addTag
  split
  · simp
  · split <;> simp

/-- **C52** (reply helper): after the helper succeeded on an event that had no marked references yet, the
lookups return the given root and reply with their relay hints; when only one of them was given both
lookups return that one if the event had no other reference. -/
theorem C52_roundtrip (cfg : Option Config.Config) (e e' : Event) (root reply : Option Ref) (n r : Nat)
    (h : addReplyTags cfg e root reply = (e', none))
    (hno : ∀ t ∈ e.tags, ¬ Marked (c!"root") t ∧ ¬ Marked (c!"reply") t)
    (hf : ∀ x, x ∈ root ∨ x ∈ reply → Fits x.id (x.relay.getD []) n r) :
    (∀ x ∈ root, getRootId e' n r = .ok (x.id, x.relay.getD [])) ∧
    (∀ x ∈ reply, getReplyId e' n r = .ok (x.id, x.relay.getD [])) ∧
    (reply = none → ∀ x ∈ root, getReplyId e' n r = .ok (x.id, x.relay.getD [])) ∧
    (root = none → (∀ t ∈ e.tags, ¬ IsE t) → ∀ x ∈ reply, getRootId e' n r = .ok (x.id, x.relay.getD [])) := by
  have tg : ∀ (x : Ref) (m : Bytes), [c!"e", x.id, x.relay.getD [], m] ++ x.pubkey.toList
      = c!"e" :: x.id :: x.relay.getD [] :: m :: x.pubkey.toList := fun _ _ => rfl
  unfold addReplyTags at h
  split at h
  · cases h
  cases root with
  | none =>
    cases reply with
    | none => simp_all
    | some y =>
      simp only at h
      cases ha : addE cfg e y.id y.relay (c!"reply") y.pubkey with
      | err x => rw [ha] at h; cases h
      | ub => rw [ha] at h; cases h
      | ok e2 =>
        rw [ha] at h
        simp only [Prod.mk.injEq, and_true] at h
        unfold addE at ha
        rw [tg] at ha
        have he := addTag_ok ha
        rw [h] at he
        have hy := hf y (.inr rfl)
        refine ⟨by simp, ?_, by simp, ?_⟩
        · intro x hx
          obtain rfl : y = x := by simpa using hx
          exact (C52_marked e' e.tags [] _ _ y.pubkey.toList n r hy).2 (by rw [he]) (fun t ht => (hno t ht).2)
        · intro _ hne x hx
          obtain rfl : y = x := by simpa using hx
          refine (C52_unmarked e' e.tags [] y.id (y.relay.getD [] :: c!"reply" :: y.pubkey.toList) n r (by rw [he]) hy).1 ?_ hne
          intro t ht
          rw [he] at ht
          simp only [List.mem_append, List.mem_singleton] at ht
          rcases ht with ht | rfl
          · exact (hno t ht).1
          · rintro ⟨a, b, c, hc⟩
            simp at hc
  | some x0 =>
    simp only at h
    cases ha : addE cfg e x0.id x0.relay (c!"root") x0.pubkey with
    | err x => rw [ha] at h; cases h
    | ub => rw [ha] at h; cases h
    | ok e1 =>
      rw [ha] at h
      simp only at h
      unfold addE at ha
      rw [tg] at ha
      have he1 := addTag_ok ha
      have hx0 := hf x0 (.inl rfl)
      cases reply with
      | none =>
        simp only [Prod.mk.injEq, and_true] at h
        rw [h] at he1
        refine ⟨?_, by simp, ?_, by simp⟩
        · intro x hx
          obtain rfl : x0 = x := by simpa using hx
          exact (C52_marked e' e.tags [] _ _ x0.pubkey.toList n r hx0).1 (by rw [he1]) (fun t ht => (hno t ht).1)
        · intro _ x hx
          obtain rfl : x0 = x := by simpa using hx
          refine (C52_unmarked e' e.tags [] x0.id (x0.relay.getD [] :: c!"root" :: x0.pubkey.toList) n r (by rw [he1]) hx0).2 ?_ (by simp)
          intro t ht
          rw [he1] at ht
          simp only [List.mem_append, List.mem_singleton] at ht
          rcases ht with ht | rfl
          · exact (hno t ht).2
          · rintro ⟨a, b, c, hc⟩
            simp at hc
      | some y =>
        simp only at h
        cases hb : addE cfg e1 y.id y.relay (c!"reply") y.pubkey with
        | err x => rw [hb] at h; cases h
        | ub => rw [hb] at h; cases h
        | ok e2 =>
          rw [hb] at h
          simp only [Prod.mk.injEq, and_true] at h
          unfold addE at hb
          rw [tg] at hb
          have he := addTag_ok hb
          rw [h] at he
          have hy := hf y (.inr rfl)
          refine ⟨?_, ?_, by simp, by simp⟩
          · intro x hx
            obtain rfl : x0 = x := by simpa using hx
            refine (C52_marked e' e.tags [c!"e" :: y.id :: y.relay.getD [] :: c!"reply" :: y.pubkey.toList] _ _ x0.pubkey.toList n r hx0).1 ?_ (fun t ht => (hno t ht).1)
            rw [he, he1]
            simp only [List.append_assoc, List.cons_append, List.nil_append]
          · intro x hx
            obtain rfl : y = x := by simpa using hx
            refine (C52_marked e' e1.tags [] _ _ y.pubkey.toList n r hy).2 (by rw [he]) ?_
            intro t ht
            rw [he1] at ht
            simp only [List.mem_append, List.mem_singleton] at ht
            rcases ht with ht | rfl
            · exact (hno t ht).2
            · rintro ⟨a, b, c, hc⟩
              simp at hc

/-- **C52** (helper failure): the helper fails only for missing references or a full tag list. -/
theorem C52_reply_ok (cfg : Option Config.Config) (e : Event) (root reply : Option Ref) (hr : root ≠ none ∨ reply ≠ none)
    (hc : ∀ c ∈ cfg, e.tags.length + 1 < c.maxTags) : (addReplyTags cfg e root reply).2 = none := by
  have ok : ∀ (e1 : Event) (v : List Bytes), v ≠ [] → e1.tags.length ≤ e.tags.length + 1 →
      addTag cfg e1 v = .ok { e1 with tags := e1.tags ++ [v] } := by
    intro e1 v hv hl
    unfold addTag
    rw [if_neg hv]
    cases cfg with
    | none => rfl
    | some c =>
      have := hc c rfl
      simp only [Option.any_some, decide_eq_true_eq]
      rw [if_neg (by omega)]
  unfold addReplyTags
  rw [if_neg (by rcases hr with h | h <;> simp [h])]
  cases root with
  | none =>
    cases reply with
    | none => simp at hr
    | some y =>
      simp only [addE]
      rw [ok e _ (by simp) (by omega)]
  | some x =>
    simp only [addE]
    rw [ok e _ (by simp) (by omega)]
    cases reply with
    | none => rfl
    | some y =>
      simp only
      rw [ok _ _ (by simp) (by simp)]

/-- **C52** (`is_reply`): the answer is yes exactly when the reply lookup returns a non-empty id. -/
theorem C52_is_reply (e : Event) :
    isReply e = true ↔ ∃ id relay, getReplyId e 65 0 = .ok (id, relay) ∧ id ≠ [] := by
  unfold isReply
  constructor
  · intro h
    split at h
    · rename_i id rl hg
      exact ⟨id, rl, hg, by simpa using h⟩
    · simp at h
  · rintro ⟨id, rl, h, hne⟩
    rw [h]
    simpa using hne

/-- **C52, refuted** for mentions: an event whose only reference is marked as a mention is reported as a
reply to the mentioned event. -/
theorem C52_mention_refuted : ∃ e : Event,
    (∀ t ∈ e.tags, IsE t → Marked (c!"mention") t) ∧ isReply e = true ∧
    getRootId e 65 65 = .ok (List.replicate 64 0x61, []) ∧ getReplyId e 65 65 = .ok (List.replicate 64 0x61, []) := by
  refine ⟨{ zero with tags := [[c!"e", List.replicate 64 0x61, [], c!"mention"]] }, ?_, by decide +kernel, by decide +kernel, by decide +kernel⟩
  intro t ht _
  simp only [List.mem_singleton] at ht
  exact ⟨_, _, _, ht⟩

/-- The hypotheses of the round trip are met. -/
example : (addReplyTags none { zero with tags := [[c!"p", c!"x"]] } (some ⟨List.replicate 64 0x61, some (c!"wss://r"), none⟩)
      (some ⟨List.replicate 64 0x62, none, some (c!"k")⟩)).2 = none ∧
    Fits (List.replicate 64 0x61) (c!"wss://r") 65 256 ∧ Fits (List.replicate 64 0x62) [] 65 256 ∧
    ¬ Marked (c!"root") [c!"p", c!"x"] := by
  refine ⟨by decide, by decide, by decide, ?_⟩
  rintro ⟨a, b, c, h⟩
  simp at h

/-- A thread with mixed references. -/
example : getRootId { zero with tags := [[c!"e", c!"m", [], c!"mention"], [c!"e", c!"r", c!"wss://r", c!"root"], [c!"e", c!"y"]] } 65 20
      = .ok (c!"r", c!"wss://r") ∧
    getReplyId { zero with tags := [[c!"e", c!"m", [], c!"mention"], [c!"e", c!"r", c!"wss://r", c!"root"], [c!"e", c!"y"]] } 65 20
      = .ok (c!"y", []) := by decide

end Nostr.Nip10.Props
