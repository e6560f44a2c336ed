import Verif.Relay.Spec
import Verif.Relay.Lemmas
import Verif.Msg.Props

/-! # Property theorems: C33, C34, C35, C90, C91, C92 -/

namespace Nostr.Relay.Props
open Nostr Nostr.Event Nostr.Json Nostr.Relay Nostr.Relay.Spec

/-! ## C33: framing -/

theorem array_frame {m : Bytes} (h : ArrayText m) (x : Bytes) : frame (m ++ x) = some (m, x) := by
  obtain ⟨-, l, hp⟩ := h
  have key : ∃ t, m = 0x5b :: t ++ [0x5d] ∧ Neutral t := by
    rw [parseValue.eq_def] at hp
    simp only at hp
    split at hp
    · simp at hp
    split at hp
    · simp at hp
    split at hp
    · simp at hp
    cases m with
    | nil => simp at hp
    | cons c r =>
    simp only at hp
    split at hp
    · obtain ⟨q, -, hq⟩ := Option.map_eq_some_iff.1 hp; simp at hq
    split at hp
    · split at hp <;> simp at hp
    split at hp
    · rename_i hc
      subst hc
      split at hp
      · simp at hp
      obtain ⟨w, hw, hn⟩ := skipWs_split r
      split at hp
      · simp at hp
      rename_i d' r' hs
      split at hp
      · rename_i hd
        simp only [Option.some.injEq, Prod.mk.injEq] at hp
        refine ⟨w, ?_, hn⟩
        conv => lhs; rw [hw, hs, hd, hp.2]
        simp
      · obtain ⟨q, hq, h⟩ := Option.map_eq_some_iff.1 hp
        simp only [Prod.mk.injEq] at h
        obtain ⟨t, h1, h2⟩ := (parse_neutral _).2.1 _ _ q.1 q.2 hq
        refine ⟨w ++ t, ?_, hn.append h2⟩
        conv => lhs; rw [hw, h1, h.2]
        simp
    split at hp
    · split at hp
      · simp at hp
      split at hp
      · simp at hp
      split at hp
      · simp at hp
      · obtain ⟨q, -, hq⟩ := Option.map_eq_some_iff.1 hp; simp at hq
    · simp at hp
  obtain ⟨t, rfl, hn⟩ := key
  have hs : scan 0 false (0x5b :: t ++ [0x5d] ++ x) = some x := by
    simp only [List.cons_append, List.append_assoc]
    rw [scan_false]
    simp only [show ¬ ((0x5b : UInt8) = 0x22) by decide, true_or, if_true, if_false]
    rw [hn 1 _ (by omega), List.nil_append, scan_false]
    simp
  unfold frame
  rw [if_pos (by simp), hs]
  have e : (0x5b :: t ++ [0x5d] ++ x).length - x.length = (0x5b :: t ++ [0x5d]).length := by
    rw [List.length_append]; omega
  simp only [Option.map_some, e, List.take_left]

theorem blank_iff (c : UInt8) : isBlank c = true ↔ c = 0x0a ∨ c = 0x0d ∨ c = 0x20 := by
  simp [isBlank, or_assoc]

theorem skip_blanks {bl : Bytes} (h : Blanks bl) (s : Bytes) : skipBlank (bl ++ s) = skipBlank s := by
  induction bl with
  | nil => rfl
  | cons c bl ih =>
    have hc := (blank_iff c).2 (h c (by simp))
    unfold skipBlank
    rw [List.cons_append, List.dropWhile_cons, if_pos hc]
    exact ih fun d hd => h d (by simp [hd])

theorem array_head {m : Bytes} (h : ArrayText m) : ∃ t, m = 0x5b :: t := by
  have := array_frame h []
  unfold frame at this
  split at this
  · rename_i hh
    cases m with
    | nil => simp at hh
    | cons c m => simp at hh; exact ⟨m, by rw [hh]⟩
  · simp at this

theorem skip_array (t : Bytes) : skipBlank (0x5b :: t) = 0x5b :: t := by
  unfold skipBlank
  rw [List.dropWhile_cons, if_neg (by decide)]

theorem drain_skip (s : Bytes) {t : Bytes} (h : skipBlank s = skipBlank t) : drain s = drain t := by
  unfold drain
  rw [h]
  have h1 := skipBlank_le s
  have h2 := skipBlank_le t
  rw [h] at h1
  exact drainP_fuel _ _ _ (by omega) (by omega)

theorem drain_array {bl m : Bytes} (hb : Blanks bl) (hm : ArrayText m) (x : Bytes) :
    drain (bl ++ m ++ x) = (m :: (drain x).1, (drain x).2) := by
  apply drain_some
  rw [List.append_assoc, skip_blanks hb]
  obtain ⟨t, ht⟩ := array_head hm
  rw [ht, List.cons_append, skip_array, ← List.cons_append, ← ht]
  exact array_frame hm x

theorem stream_drain {ms : List Bytes} {s : Bytes} (h : Stream ms s) : drain s = (ms, []) := by
  induction h with
  | nil hb =>
    rw [drain_skip _ (t := []) (by have := skip_blanks hb []; rwa [List.append_nil] at this)]
    decide
  | cons hb hm _ ih => rw [drain_array hb hm, ih]

/-- After any prefix of the stream, what is pending is a prefix of one message. -/
theorem stream_pending {ms : List Bytes} {s : Bytes} (h : Stream ms s) : ∀ p x, s = p ++ x →
    (drain p).2 = [] ∨ ∃ m ∈ ms, ∃ y, m = (drain p).2 ++ y := by
  have blank_only : ∀ p, Blanks p → (drain p).2 = [] := by
    intro p hp
    rw [drain_skip _ (t := []) (by have := skip_blanks hp []; rwa [List.append_nil] at this)]
    decide
  induction h with
  | nil hb =>
    intro p x e
    left
    apply blank_only
    intro c hc
    exact hb c (by rw [e]; simp [hc])
  | @cons bl m ms s hb hm hs ih =>
    intro p x e
    rw [List.append_assoc] at e
    rcases List.append_eq_append_iff.1 e with ⟨q, hq, e2⟩ | ⟨q, hq, e2⟩
    · -- the prefix reaches beyond the blanks
      subst hq
      rcases List.append_eq_append_iff.1 e2 with ⟨q', hq', e3⟩ | ⟨q', hq', e3⟩
      · subst hq'
        rw [← List.append_assoc, drain_array hb hm]
        rcases ih q' x e3 with h | ⟨m', hm', y, hy⟩
        · exact .inl h
        · exact .inr ⟨m', by simp [hm'], y, hy⟩
      · by_cases hn : q' = []
        · subst hn
          rw [List.append_nil] at hq'
          subst hq'
          have := drain_array hb hm []
          rw [List.append_nil] at this
          rw [this]
          left
          show (drain []).2 = []
          decide
        · cases q with
          | nil =>
            left
            rw [List.append_nil]
            exact blank_only _ hb
          | cons c q =>
            obtain ⟨t, ht⟩ := array_head hm
            have hc : c = 0x5b := by rw [ht] at hq'; simp at hq'; exact hq'.1.symm
            subst hc
            right
            refine ⟨m, by simp, q', ?_⟩
            have hf : frame (0x5b :: q) = none := by
              cases hf : frame (0x5b :: q) with
              | none => rfl
              | some r =>
                obtain ⟨-, -, h3⟩ := frame_some hf
                have h4 := h3 q'
                rw [← hq'] at h4
                have h5 := array_frame hm []
                rw [List.append_nil, h4] at h5
                simp only [Option.some.injEq, Prod.mk.injEq, List.append_eq_nil_iff] at h5
                exact absurd h5.2.2 hn
            have hd : drain (bl ++ 0x5b :: q) = ([], 0x5b :: q) := by
              have hsk : skipBlank (bl ++ 0x5b :: q) = 0x5b :: q := by rw [skip_blanks hb, skip_array]
              rw [drain_none (by rw [hsk]; exact hf), hsk]
            rw [hd]
            exact hq'
    · left
      apply blank_only
      intro c hc
      exact hb c (by rw [hq]; simp [hc])

theorem cstr_append {a b : Bytes} (ha : CStr a) (hb : CStr b) : CStr (a ++ b) := by
  unfold CStr at *; simp [ha, hb]

theorem drain_cstr {s : Bytes} (h : CStr s) : CStr (drain s).2 := by
  obtain ⟨p, hp⟩ := drain_suffix _ s (Nat.le_refl _)
  intro h0
  exact h (by rw [hp]; simp [h0])

theorem drain_idem (s : Bytes) : drain (drain s).2 = ([], (drain s).2) := by
  have h := drain_append _ s (Nat.le_refl _) []
  simp only [List.append_nil] at h
  have h1 := congrArg Prod.fst h
  have h2 := congrArg Prod.snd h
  simp only at h1 h2
  refine Prod.ext ?_ h2.symm
  have := congrArg List.length h1
  simp only [List.length_append] at this
  exact List.length_eq_zero_iff.1 (by omega)

/-- Chunk by chunk the messages of the whole text are delivered, as long as the buffer limit is not hit. -/
theorem receive_run (cs : List Bytes) : ∀ st : Rx, CStr st.buf → drain st.buf = ([], st.buf) →
    (∀ c ∈ cs, CStr c) →
    (∀ pre c post, cs = pre ++ c :: post →
      (drain (st.buf ++ pre.flatten)).2.length + c.length + 1024 ≤ maxBuffer) →
    ∃ st', receiveAll st (cs.map fun c => (true, c)) = .ok (st', (drain (st.buf ++ cs.flatten)).1) ∧
      st'.buf = (drain (st.buf ++ cs.flatten)).2 := by
  induction cs with
  | nil =>
    intro st _ hd _ _
    refine ⟨st, ?_, ?_⟩
    · simp [receiveAll, hd]
    · simp [hd]
  | cons c cs ih =>
    intro st hb hd hc hfit
    have hcc := hc c (by simp)
    have step : ∃ st1, receive true st c = .ok (st1, (drain (st.buf ++ c)).1) ∧ st1.buf = (drain (st.buf ++ c)).2 := by
      unfold receive
      by_cases h0 : c.length = 0
      · rw [if_pos h0]
        have : c = [] := List.length_eq_zero_iff.1 h0
        subst this
        exact ⟨st, by simp [hd], by simp [hd]⟩
      · rw [if_neg h0]
        have h1 := hfit [] c cs rfl
        simp only [List.flatten_nil, List.append_nil, hd] at h1
        have hcs : (st.buf ++ c).takeWhile (· != 0) = st.buf ++ c := takeWhile_cstr (cstr_append hb hcc)
        by_cases h2 : st.buf.length + c.length ≥ st.size
        · rw [if_pos h2, if_neg (by omega)]
          simp only [Bool.not_true, Bool.false_eq_true, if_false]
          rw [absorb_ok (by simp only [List.length_append]; omega), hcs]
          exact ⟨_, rfl, rfl⟩
        · rw [if_neg h2, absorb_ok (by simp only [List.length_append]; omega), hcs]
          exact ⟨_, rfl, rfl⟩
    obtain ⟨st1, h1, h2⟩ := step
    have happ : ∀ x, drain (st.buf ++ c ++ x) =
        ((drain (st.buf ++ c)).1 ++ (drain (st1.buf ++ x)).1, (drain (st1.buf ++ x)).2) := by
      intro x; rw [h2]; exact drain_append _ _ (Nat.le_refl _) x
    obtain ⟨st', h3, h4⟩ := ih st1 (by rw [h2]; exact drain_cstr (cstr_append hb hcc))
      (by rw [h2]; exact drain_idem _) (fun d hd => hc d (by simp [hd])) (by
        intro pre d post e
        have := hfit (c :: pre) d post (by rw [e]; rfl)
        rw [List.flatten_cons, ← List.append_assoc, happ] at this
        exact this)
    refine ⟨st', ?_, ?_⟩
    · rw [List.map_cons, receiveAll, h1, Res.bind_ok]
      simp only [h3, Res.bind_ok]
      rw [List.flatten_cons, ← List.append_assoc, happ]
    · rw [List.flatten_cons, ← List.append_assoc, happ]; exact h4

/-- C33: whatever the chunk boundaries, a stream of JSON arrays is delivered exactly, message by message and in
order, provided a message and a chunk together stay 1024 bytes below the buffer limit of 10 MB. -/
theorem C33_exact {ms : List Bytes} {s : Bytes} (h : Stream ms s) {longest chunk : Nat}
    (hL : ∀ m ∈ ms, m.length ≤ longest) (hfit : longest + chunk + 1024 ≤ 10485760) (cs : List Bytes)
    (hcs : cs.flatten = s) (hC : ∀ c ∈ cs, c.length ≤ chunk) :
    ∃ st, receiveAll Rx.new (cs.map fun c => (true, c)) = .ok (st, ms) ∧ st.buf = [] := by
  have hstr : CStr s := by
    clear hcs hL
    induction h with
    | nil hb =>
      intro h0
      rcases hb 0 h0 with h | h | h <;> revert h <;> decide
    | cons hb hm _ ih =>
      refine cstr_append (cstr_append ?_ hm.1) ih
      intro h0
      rcases hb 0 h0 with h | h | h <;> revert h <;> decide
  obtain ⟨st, h1, h2⟩ := receive_run cs Rx.new (by simp [Rx.new, CStr]) (by decide)
    (by
      intro c hc h0
      exact hstr (by rw [← hcs]; exact List.mem_flatten.2 ⟨c, hc, h0⟩))
    (by
      intro pre c post e
      simp only [Rx.new, List.nil_append]
      have hc : c.length ≤ chunk := hC c (by rw [e]; simp)
      have hp : (drain pre.flatten).2.length ≤ longest := by
        rcases stream_pending h pre.flatten (c ++ post.flatten) (by rw [← hcs, e]; simp) with h | ⟨m, hm, y, hy⟩
        · rw [h]; simp
        · have := hL m hm
          rw [hy, List.length_append] at this
          omega
      unfold maxBuffer
      omega)
  simp only [Rx.new, List.nil_append, hcs, stream_drain h] at h1 h2
  exact ⟨st, h1, h2⟩

/-- C33, any text without NUL and shorter than the buffer limit: the messages delivered do not depend on the
chunks. -/
theorem C33_chunking {s : Bytes} (hs : CStr s) (hl : s.length + 1024 ≤ 10485760) (cs cs' : List Bytes)
    (h1 : cs.flatten = s) (h2 : cs'.flatten = s) :
    ∃ st st' ms, receiveAll Rx.new (cs.map fun c => (true, c)) = .ok (st, ms) ∧
      receiveAll Rx.new (cs'.map fun c => (true, c)) = .ok (st', ms) ∧ st.buf = st'.buf := by
  have key : ∀ cs : List Bytes, cs.flatten = s → ∃ st, receiveAll Rx.new (cs.map fun c => (true, c)) = .ok (st, (drain s).1) ∧
      st.buf = (drain s).2 := by
    intro cs h
    obtain ⟨st, h1, h2⟩ := receive_run cs Rx.new (by simp [Rx.new, CStr]) (by decide)
      (by
        intro c hc h0
        exact hs (by rw [← h]; exact List.mem_flatten.2 ⟨c, hc, h0⟩))
      (by
        intro pre c post e
        simp only [Rx.new, List.nil_append]
        obtain ⟨p, hp⟩ := drain_suffix _ pre.flatten (Nat.le_refl _)
        have e1 := congrArg List.length hp
        have e2 : s.length = pre.flatten.length + (c.length + post.flatten.length) := by
          rw [← h, e]; simp
        rw [List.length_append] at e1
        unfold maxBuffer
        omega)
    simp only [Rx.new, List.nil_append, h] at h1 h2
    exact ⟨st, h1, h2⟩
  obtain ⟨st, a1, a2⟩ := key cs h1
  obtain ⟨st', b1, b2⟩ := key cs' h2
  exact ⟨st, st', _, a1, b1, by rw [a2, b2]⟩

/-- Two messages with a blank between them. -/
def twoMsgs : List Bytes := [c!"[\"EOSE\",\"a]\"]", c!"[\"NOTICE\",\"x\\\"]\"]"]

theorem twoMsgs_stream : Stream twoMsgs (c!"[\"EOSE\",\"a]\"]\n[\"NOTICE\",\"x\\\"]\"] ") := by
  have h := Stream.cons (bl := []) (m := c!"[\"EOSE\",\"a]\"]") (by simp [Blanks])
    ⟨by decide, [.str (c!"EOSE"), .str (c!"a]")], by decide +kernel⟩
    (Stream.cons (bl := c!"\n") (m := c!"[\"NOTICE\",\"x\\\"]\"]") (by unfold Blanks; decide)
      ⟨by decide, [.str (c!"NOTICE"), .str (c!"x\"]")], by decide +kernel⟩ (Stream.nil (bl := c!" ") (by unfold Blanks; decide)))
  exact h

example : ∃ ms s, Stream ms s ∧ ms.length = 2 ∧ (∀ m ∈ ms, m.length ≤ 1000) ∧ 1000 + 65536 + 1024 ≤ 10485760 ∧
    ∃ cs : List Bytes, cs.flatten = s ∧ cs.length = 3 ∧ ∀ c ∈ cs, c.length ≤ 65536 :=
  ⟨_, _, twoMsgs_stream, rfl, by decide, by decide,
    [c!"[\"EOS", c!"E\",\"a]\"]\n[\"NOTICE\",\"x\\", c!"\"]\"] "], by decide, rfl, by decide⟩

theorem limit_case (n : Nat) (h1 : n + 2 + 2 + 1024 ≤ 10485760) (h2 : 10485760 ≤ n + n) :
    ∃ a b : Bytes, Stream [c!"[]"] (a ++ b) ∧
    (∃ st, receiveAll Rx.new [(true, a), (true, b)] = .ok (st, [c!"[]"])) ∧
    (∃ st, receiveAll Rx.new [(true, a ++ b)] = .ok (st, [])) := by
  have hbl : ∀ n, Blanks (List.replicate n (0x20 : UInt8)) := by
    intro n c hc; rw [(List.mem_replicate.1 hc).2]; simp
  have harr : ArrayText (c!"[]") := ⟨by decide, [], by decide +kernel⟩
  have hs : Stream [c!"[]"] (List.replicate n 0x20 ++ (List.replicate n 0x20 ++ c!"[]")) := by
    have := Stream.cons (hbl (n + n)) harr (Stream.nil (bl := []) (by simp [Blanks]))
    rw [List.append_nil, ← List.replicate_append_replicate, List.append_assoc] at this
    exact this
  refine ⟨List.replicate n 0x20, List.replicate n 0x20 ++ c!"[]", hs, ?_, ?_⟩
  · obtain ⟨st, h1, -⟩ := C33_exact hs (longest := 2) (chunk := n + 2) (by simp) (by omega)
      [List.replicate n 0x20, List.replicate n 0x20 ++ c!"[]"] (by simp) (by
        intro c hc
        simp only [List.mem_cons, List.not_mem_nil, or_false] at hc
        rcases hc with rfl | rfl
        · rw [List.length_replicate]; omega
        · rw [List.length_append, List.length_replicate]; exact Nat.le_refl _)
    exact ⟨st, h1⟩
  · refine ⟨⟨[], 0⟩, ?_⟩
    have hl : (List.replicate n (0x20 : UInt8) ++ (List.replicate n 0x20 ++ c!"[]")).length = n + n + 2 := by
      rw [List.length_append, List.length_append, List.length_replicate]; simp; omega
    generalize List.replicate n (0x20 : UInt8) ++ (List.replicate n 0x20 ++ c!"[]") = t at hl
    have hr : receive true Rx.new t = .ok (⟨[], 0⟩, []) := by
      unfold receive Rx.new maxBuffer
      simp only [List.length_nil, hl]
      rw [if_neg (by omega), if_pos (by omega), if_pos (by omega)]
    simp [receiveAll, hr]

/-- Beyond the limit C33 is false: the same stream, received in two chunks or in one, delivers a message or
nothing at all. -/
theorem C33_limit_refuted : ∃ a b : Bytes, Stream [c!"[]"] (a ++ b) ∧
    (∃ st, receiveAll Rx.new [(true, a), (true, b)] = .ok (st, [c!"[]"])) ∧
    (∃ st, receiveAll Rx.new [(true, a ++ b)] = .ok (st, [])) :=
  limit_case 6000000 (by omega) (by omega)

/-! ## C34: the receive buffer -/

/-- The buffer's fill level leaves room for the terminating NUL and its size is at most 10 MB. -/
def BufferOk (st : Rx) : Prop := (st.buf.length < st.size ∨ (st.buf = [] ∧ st.size = 0)) ∧ st.size ≤ 10485760

theorem receive_safe (g : Bool) {st : Rx} (h : BufferOk st) (c : Bytes) :
    ∃ st' ms, receive g st c = .ok (st', ms) ∧ BufferOk st' ∧ st.size ≤ st'.size := by
  have hab : ∀ st : Rx, (st.buf ++ c).length < st.size → st.size ≤ 10485760 →
      ∃ st' ms, absorb st c = .ok (st', ms) ∧ BufferOk st' ∧ st.size ≤ st'.size := by
    intro st hl hs
    rw [absorb_ok hl]
    refine ⟨_, _, rfl, ⟨.inl ?_, hs⟩, Nat.le_refl _⟩
    obtain ⟨p, hp⟩ := drain_suffix _ ((st.buf ++ c).takeWhile (· != 0)) (Nat.le_refl _)
    have e1 := congrArg List.length hp
    have e2 : ((st.buf ++ c).takeWhile (· != 0)).length ≤ (st.buf ++ c).length := (List.takeWhile_sublist _).length_le
    rw [List.length_append] at e1
    simp only
    omega
  obtain ⟨h1, h2⟩ := h
  unfold receive maxBuffer
  split
  · exact ⟨st, [], rfl, ⟨h1, h2⟩, Nat.le_refl _⟩
  · split
    · split
      · refine ⟨_, _, rfl, ⟨?_, h2⟩, Nat.le_refl _⟩
        rcases h1 with h1 | h1
        · left; simp only [List.length_nil]; omega
        · right; exact ⟨rfl, h1.2⟩
      · split
        · exact ⟨st, [], rfl, ⟨h1, h2⟩, Nat.le_refl _⟩
        · obtain ⟨st', ms, h3, h4, h5⟩ := hab ⟨st.buf, st.buf.length + c.length + 1024⟩
            (by simp only [List.length_append]; omega) (by simp only; omega)
          exact ⟨st', ms, h3, h4, by simp only at h5; omega⟩
    · exact hab st (by simp only [List.length_append]; omega) h2

/-- C34: for every sequence of chunks with any bytes, and whatever `realloc` does, nothing is written outside
the buffer, the fill level stays below the size, and the size is at most 10 MB. -/
theorem C34_bounds (cs : List (Bool × Bytes)) :
    ∃ st ms, receiveAll Rx.new cs = .ok (st, ms) ∧
      (st.buf.length < st.size ∨ (st.buf = [] ∧ st.size = 0)) ∧ st.size ≤ 10485760 := by
  have key : ∀ (cs : List (Bool × Bytes)) (st : Rx), BufferOk st →
      ∃ st' ms, receiveAll st cs = .ok (st', ms) ∧ BufferOk st' := by
    intro cs
    induction cs with
    | nil => intro st h; exact ⟨st, [], rfl, h⟩
    | cons q cs ih =>
      intro st h
      obtain ⟨g, c⟩ := q
      obtain ⟨st1, m1, h1, h2, -⟩ := receive_safe g h c
      obtain ⟨st2, m2, h3, h4⟩ := ih st1 h2
      exact ⟨st2, m1 ++ m2, by simp [receiveAll, h1, h3], h4⟩
  obtain ⟨st, ms, h1, h2, h3⟩ := key cs Rx.new ⟨.inr ⟨rfl, rfl⟩, by decide⟩
  exact ⟨st, ms, h1, h2, h3⟩

example : receiveAll Rx.new [(true, c!"[1"), (false, List.replicate 1100 0x31), (true, c!"]\x00x [2]")] =
    .ok (⟨[], 1026⟩, [c!"[1]"]) := by decide +kernel

/-! ## C35: subscription ids -/

theorem safe_table : ∀ n < 256, (0x20 ≤ UInt8.ofNat n ∧ UInt8.ofNat n ≠ 0x22 ∧ UInt8.ofNat n ≠ 0x5c) →
    escChar (UInt8.ofNat n) = [UInt8.ofNat n] ∧ UInt8.ofNat n ≠ 0 := by decide +kernel

theorem validSubId_iff (s : Bytes) : validSubId s = true ↔
    (1 ≤ s.length ∧ s.length ≤ 256) ∧ ∀ c ∈ s, 0x20 ≤ c ∧ c ≠ 0x22 ∧ c ≠ 0x5c := by
  unfold validSubId
  simp only [Bool.and_eq_true, Bool.not_eq_true', Bool.or_eq_false_iff, decide_eq_false_iff_not, List.all_eq_true,
    UInt8.not_lt]
  constructor
  · rintro ⟨⟨h1, h2⟩, h3⟩
    exact ⟨by omega, fun c hc => ⟨(h3 c hc).2, (h3 c hc).1.1, (h3 c hc).1.2⟩⟩
  · rintro ⟨h1, h2⟩
    exact ⟨by omega, fun c hc => ⟨⟨(h2 c hc).2.1, (h2 c hc).2.2⟩, (h2 c hc).1⟩⟩

theorem valid_cstr {id : Bytes} (h : validSubId id = true) : CStr id ∧ quoted id = 0x22 :: id ++ [0x22] := by
  have h2 := ((validSubId_iff id).1 h).2
  have key : ∀ c ∈ id, escChar c = [c] ∧ c ≠ 0 := by
    intro c hc
    have := safe_table c.toNat c.toNat_lt
    rw [UInt8.ofNat_toNat] at this
    exact this (h2 c hc)
  refine ⟨fun h0 => (key 0 h0).2 rfl, ?_⟩
  have : escape id = id := by
    clear h h2
    unfold escape
    induction id with
    | nil => rfl
    | cons c id ih =>
      rw [List.flatMap_cons, (key c (by simp)).1, ih fun d hd => key d (by simp [hd])]
      rfl
  rw [quoted, this]

/-- Reading an array element that is a string. -/
theorem elems_str {s : Bytes} (hs : CStr s) (f d : Nat) (hd : d < nestingLimit) (c : UInt8) (rest : Bytes)
    (hc : isNumChar c = false) (hc' : ¬ c ≤ 0x20) :
    parseElems (f + 2) d (quoted s ++ c :: rest) =
      if c = 0x2c then (parseElems (f + 1) d (skipWs rest)).map fun p => (.str s :: p.1, p.2)
      else if c = 0x5d then some ([.str s], rest) else none := by
  have h := value_back false (.str s) (f + 1) d 0 (c :: rest) (by simp [need]) (by simpa [Good] using hs)
    (by simp only [Json.height]; omega) (by intro x hx; simp only [List.head?_cons, Option.some.injEq] at hx; rw [← hx]; exact hc)
  simp only [Json.print] at h
  rw [parseElems, h]
  simp only [skipWs_cons hc']

theorem skip_quoted (s x : Bytes) : skipWs (quoted s ++ x) = quoted s ++ x := by
  rw [quoted, List.cons_append, List.cons_append, skipWs_cons (by decide)]

/-- Reading an array that starts with a string. -/
theorem parse_one {a : Bytes} (ha : CStr a) (rest : Bytes) :
    ∃ f, 2 * rest.length ≤ f ∧ parse (0x5b :: quoted a ++ 0x2c :: rest) =
      (parseElems (f + 2) 1 (skipWs rest)).map fun p => .arr (.str a :: p.1) := by
  have hl : ∃ f, 2 * rest.length ≤ f ∧ 2 * (0x5b :: quoted a ++ 0x2c :: rest).length + 2 = f + 4 := by
    refine ⟨2 * (0x5b :: quoted a ++ 0x2c :: rest).length - 2, ?_, ?_⟩
    · simp only [List.length_cons, List.length_append]; omega
    · simp only [List.length_cons, List.length_append]; omega
  obtain ⟨f, hf, hl⟩ := hl
  refine ⟨f, hf, ?_⟩
  unfold parse
  rw [hl, List.cons_append, skipWs_cons (by decide), parseValue.eq_def]
  have e1 : skipWs (quoted a ++ 0x2c :: rest) = quoted a ++ 0x2c :: rest := skip_quoted _ _
  have e2 := elems_str ha (f + 1) 1 (by decide) 0x2c rest (by decide) (by decide)
  rw [if_pos rfl] at e2
  simp only [List.isPrefixOf, show ((0x6e : UInt8) == 0x5b) = false by decide, show ((0x66 : UInt8) == 0x5b) = false by decide,
    show ((0x74 : UInt8) == 0x5b) = false by decide, Bool.false_and, Bool.false_eq_true, if_false, e1,
    show ¬ ((0x5b : UInt8) = 0x22) by decide, show ¬ ((0x5b : UInt8) = 0x2d ∨ Num.isDigit 0x5b = true) by decide,
    if_true, show ¬ (0 ≥ nestingLimit) by decide, Nat.zero_add]
  rw [show quoted a ++ 0x2c :: rest = 0x22 :: (escape a ++ [0x22] ++ 0x2c :: rest) from rfl] at e2 ⊢
  simp only [show ¬ ((0x22 : UInt8) = 0x5d) by decide, if_false]
  rw [e2]
  cases parseElems (f + 2) 1 (skipWs rest) <;> rfl

/-- Reading an array that starts with two strings. -/
theorem parse_two {a b : Bytes} (ha : CStr a) (hb : CStr b) (c : UInt8) (rest : Bytes) (hc : isNumChar c = false)
    (hc' : ¬ c ≤ 0x20) :
    ∃ f, 2 * rest.length ≤ f ∧ parse (0x5b :: quoted a ++ 0x2c :: quoted b ++ c :: rest) =
      if c = 0x2c then (parseElems (f + 1) 1 (skipWs rest)).map fun p => .arr (.str a :: .str b :: p.1)
      else if c = 0x5d then some (.arr [.str a, .str b]) else none := by
  obtain ⟨f, hf, e⟩ := parse_one ha (quoted b ++ c :: rest)
  refine ⟨f, by simp only [List.length_append, List.length_cons] at hf; omega, ?_⟩
  rw [List.append_assoc, show (0x2c :: quoted b ++ c :: rest : Bytes) = 0x2c :: (quoted b ++ c :: rest) from rfl, e,
    skip_quoted, elems_str hb f 1 (by decide) c rest hc hc']
  split
  · cases parseElems (f + 1) 1 (skipWs rest) <;> rfl
  · split <;> rfl

/-- Reading the last element of an array. -/
theorem elems_last (fmt : Bool) (d' : Nat) {j : Json} (hg : Good j) (hh : 1 + height j ≤ nestingLimit) (f : Nat)
    (hf : need j ≤ f) (rest : Bytes) :
    parseElems (f + 1) 1 (skipWs (print fmt d' j ++ 0x5d :: rest)) = some ([j], rest) := by
  rw [skipWs_print fmt d' j hg, parseElems, value_back fmt j f 1 d' (0x5d :: rest) hf hg hh
    (by intro x hx; simp only [List.head?_cons, Option.some.injEq] at hx; rw [← hx]; decide)]
  simp only [skipWs_cons (show ¬ (0x5d : UInt8) ≤ 0x20 by decide)]
  simp

/-- C35: an id that is accepted is not empty, has at most 256 bytes, and contains no quote, backslash or control
character. -/
theorem C35_alphabet (id : Bytes) : (∃ subs filters cb r, subscribe subs id filters cb = .ok r) ↔
    (1 ≤ id.length ∧ id.length ≤ 256) ∧ ∀ c ∈ id, 0x20 ≤ c ∧ c ≠ 0x22 ∧ c ≠ 0x5c := by
  rw [← validSubId_iff]
  constructor
  · rintro ⟨subs, filters, cb, r, h⟩
    unfold subscribe at h
    split at h
    · simp at h
    · rename_i h0; simpa using h0
  · intro h
    refine ⟨[], c!"{}", none, ?_⟩
    have hp : parse (c!"{}") = some (.obj []) := by decide +kernel
    simp only [subscribe, h, Bool.not_true, Bool.false_eq_true, if_false, hp, reqText]
    rw [if_neg (by simp only [List.length_append, List.length_cons, List.length_nil]; omega)]
    exact ⟨_, rfl⟩

/-- C35: whatever filter text is sent with it, a receiver that can read the request sees exactly this id. -/
theorem C35_request (subs : List Sub) (id filters : Bytes) (cb : Option Nat) {subs' : List Sub} {t : Bytes}
    (h : subscribe subs id filters cb = .ok (subs', t)) {root : Json} (hp : parse t = some root) :
    ∃ l, root = .arr (.str (c!"REQ") :: .str id :: l) := by
  unfold subscribe at h
  split at h
  · simp at h
  rename_i hv
  simp only [Bool.not_eq_true', Bool.not_eq_false] at hv
  obtain ⟨h1, h2⟩ := valid_cstr hv
  split at h
  · simp at h
  unfold reqText at h
  simp only at h
  split at h
  · simp at h
  simp only [Res.bind_ok, Res.ok.injEq, Prod.mk.injEq] at h
  obtain ⟨-, rfl⟩ := h
  obtain ⟨f, -, e⟩ := parse_two (a := c!"REQ") (by decide) h1 0x2c (filters ++ c!"]") (by decide) (by decide)
  rw [h2] at e
  have et : c!"[\"REQ\",\"" ++ id ++ c!"\"," ++ filters ++ c!"]" =
      0x5b :: quoted (c!"REQ") ++ 0x2c :: (0x22 :: id ++ [0x22]) ++ 0x2c :: (filters ++ c!"]") := by
    rw [show quoted (c!"REQ") = c!"\"REQ\"" by decide]
    simp
  rw [et, e, if_pos rfl] at hp
  obtain ⟨q, -, rfl⟩ := Option.map_eq_some_iff.1 hp
  exact ⟨q.1, rfl⟩

/-- C35: the text that ends a subscription names exactly this id. -/
theorem C35_close (subs : List Sub) (id : Bytes) {subs' : List Sub} {t : Bytes}
    (h : unsubscribe subs id = .ok (subs', t)) : parse t = some (.arr [.str (c!"CLOSE"), .str id]) := by
  unfold unsubscribe at h
  split at h
  · simp at h
  rename_i hv
  simp only [Bool.not_eq_true', Bool.not_eq_false] at hv
  obtain ⟨h1, h2⟩ := valid_cstr hv
  unfold closeText at h
  simp only at h
  split at h
  · simp at h
  simp only [Res.bind_ok, Res.ok.injEq, Prod.mk.injEq] at h
  obtain ⟨-, rfl⟩ := h
  obtain ⟨f, -, e⟩ := parse_two (a := c!"CLOSE") (by decide) h1 0x5d [] (by decide) (by decide)
  rw [h2] at e
  have et : c!"[\"CLOSE\",\"" ++ id ++ c!"\"]" =
      0x5b :: quoted (c!"CLOSE") ++ 0x2c :: (0x22 :: id ++ [0x22]) ++ 0x5d :: [] := by
    rw [show quoted (c!"CLOSE") = c!"\"CLOSE\"" by decide]
    simp
  rw [et, e]
  rfl

/-- C35: the texts fit the blocks they are written into. -/
theorem C35_safe (subs : List Sub) (id filters : Bytes) (cb : Option Nat) :
    subscribe subs id filters cb ≠ .ub ∧ unsubscribe subs id ≠ .ub := by
  constructor
  · unfold subscribe reqText
    split
    · simp
    · split
      · simp
      · simp only
        rw [if_neg (by simp only [List.length_append, List.length_cons, List.length_nil]; omega)]
        simp
  · unfold unsubscribe closeText
    split
    · simp
    · simp only
      rw [if_neg (by simp only [List.length_append, List.length_cons, List.length_nil]; omega)]
      simp

example : subscribe [] (c!"feed:1") (c!"{\"kinds\":[1]}") (some 3) =
    .ok ([⟨c!"feed:1", some 3⟩], c!"[\"REQ\",\"feed:1\",{\"kinds\":[1]}]") := by decide +kernel
example : unsubscribe [⟨c!"a", none⟩, ⟨c!"b", some 1⟩] (c!"b") = .ok ([⟨c!"a", none⟩], c!"[\"CLOSE\",\"b\"]") := by
  decide +kernel
example : validSubId (c!"a\"b") = false := by decide

/-- The part of C35 that fails: ids of 65 to 256 characters, which relays refuse (NIP-01), are accepted. -/
theorem C35_length_refuted (n : Nat) (h1 : 65 ≤ n) (h2 : n ≤ 256) :
    ∃ subs' t, subscribe [] (List.replicate n 0x61) (c!"{}") none = .ok (subs', t) := by
  have hp : parse (c!"{}") = some (.obj []) := by decide +kernel
  have hv : validSubId (List.replicate n 0x61) = true := by
    rw [validSubId_iff]
    rw [List.length_replicate]
    refine ⟨by omega, fun c hc => ?_⟩
    rw [(List.mem_replicate.1 hc).2]
    decide
  simp only [subscribe, hv, Bool.not_true, Bool.false_eq_true, if_false, hp, reqText]
  rw [if_neg (by simp only [List.length_append, List.length_cons, List.length_nil]; omega)]
  exact ⟨_, _, rfl⟩

/-! ## C90: routing of events -/

/-- One step of a connection: the subscriptions afterwards, and the callbacks made. -/
def step (P : Plat) (b : Build) (cfg : Option Config.Config) (r : Bytes → Json) (hasCb : Bool) (subs : List Sub) :
    Op → List Sub × List Call
  | .subscribe id cb => (⟨id, cb⟩ :: subs, [])
  | .unsubscribe id => (removeSub id subs, [])
  | .text t => dispatch P b cfg r hasCb subs t

/-- The subscriptions after a history, latest operation first. -/
def subsAfter (P : Plat) (b : Build) (cfg : Option Config.Config) (r : Bytes → Json) (hasCb : Bool) : List Op → List Sub
  | [] => []
  | o :: past => (step P b cfg r hasCb (subsAfter P b cfg r hasCb past) o).1

theorem filter_remove (id i : Bytes) (subs : List Sub) :
    ((removeSub i subs).filter fun s => decide (s.id = id)) =
      if i = id then (subs.filter fun s => decide (s.id = id)).tail else subs.filter fun s => decide (s.id = id) := by
  induction subs with
  | nil => simp [removeSub]
  | cons s subs ih =>
    simp only [removeSub]
    by_cases h : s.id = i
    · rw [if_pos h, List.filter_cons]
      by_cases h2 : i = id
      · rw [if_pos h2, if_pos (by simpa [h] using h2), List.tail_cons]
      · rw [if_neg h2, if_neg (by simpa [h] using h2)]
    · rw [if_neg h, List.filter_cons, List.filter_cons, ih]
      by_cases h2 : i = id
      · have : ¬ (s.id = id) := fun h3 => h (by rw [h2]; exact h3)
        simp [h2, this]
      · simp [h2]

theorem dispatch_subs (P : Plat) (b : Build) (cfg r) (hasCb : Bool) (subs : List Sub) (t : Bytes) :
    (dispatch P b cfg r hasCb subs t).1 = match closes t with
      | some id => removeSub id subs
      | none => subs := by
  unfold dispatch closes
  cases parse t with
  | none => rfl
  | some root =>
  cases root with
  | arr l =>
    cases l with
    | nil => rfl
    | cons j0 l =>
    cases j0 with
    | str ty =>
      cases l with
      | nil => rfl
      | cons j1 js =>
        simp only
        cases js with
        | nil =>
          simp only [ne_eq, not_true_eq_false, and_false, if_false]
        | cons j2 js =>
          simp only [ne_eq, reduceCtorEq, not_false_eq_true, and_true]
          by_cases he : ty = c!"EVENT"
          · subst he
            cases j1 <;> simp
          · rw [if_neg he]
            by_cases hc : ty = c!"CLOSED"
            · rw [if_pos hc]
              cases j1 <;> simp [hc]
            · rw [if_neg hc]
              cases j1 <;> simp [hc]
    | null => rfl
    | tru => rfl
    | fls => rfl
    | num t => rfl
    | arr l => rfl
    | obj m => rfl
  | null => rfl
  | tru => rfl
  | fls => rfl
  | num t => rfl
  | str s => rfl
  | obj m => rfl

/-- The subscriptions with an id are the stack of those started and not ended. -/
theorem subs_stack (P : Plat) (b : Build) (cfg r) (hasCb : Bool) (id : Bytes) (past : List Op) :
    ((subsAfter P b cfg r hasCb past).filter fun s => decide (s.id = id)).map Sub.cb = stack id past := by
  induction past with
  | nil => rfl
  | cons o past ih =>
    cases o with
    | subscribe i cb =>
      simp only [subsAfter, step, stack, List.filter_cons]
      by_cases h : i = id
      · simp [h, ih]
      · simp [h, ih]
    | unsubscribe i =>
      simp only [subsAfter, step, stack]
      rw [filter_remove]
      by_cases h : i = id
      · rw [if_pos h, if_pos h, List.map_tail, ih]
      · rw [if_neg h, if_neg h, ih]
    | text t =>
      simp only [subsAfter, step, stack]
      rw [dispatch_subs]
      cases hcl : closes t with
      | none => simp [ih]
      | some i =>
        simp only [Option.some.injEq]
        rw [filter_remove]
        by_cases h : i = id
        · rw [if_pos h, if_pos h, List.map_tail, ih]
        · rw [if_neg h, if_neg h, ih]

theorem find_stack {subs : List Sub} {id : Bytes} {st : List (Option Nat)}
    (h : (subs.filter fun s => decide (s.id = id)).map Sub.cb = st) :
    (subs.find? fun s => decide (s.id = id)).map Sub.cb = st.head? := by
  rw [← h, List.head?_map, List.head?_filter]

/-- C90: after any history, an event callback is made exactly when an EVENT message arrives whose id belongs to
an active subscription; it is the callback of the latest one, and it receives the event of the message, with its numbers as cJSON has
printed them. -/
theorem C90_routing {P : Plat} {r : Bytes → Json} (hr : Renum r) (td fr cfg) (hasCb : Bool) (past : List Op)
    (t : Bytes) (k : Nat) (e : Event) :
    Call.event k e ∈ (step P (.cjson td fr) cfg r hasCb (subsAfter P (.cjson td fr) cfg r hasCb past) (.text t)).2 ↔
      ∃ id ev rest, parse t = some (.arr (.str (c!"EVENT") :: .str id :: ev :: rest)) ∧
        (stack id past).head? = some (some k) ∧ fromTree P cfg (mapNum r ev) = .ok e := by
  have hno : ∀ ty root, Call.event k e ∉ notify hasCb r ty root := by
    intro ty root; unfold notify; split <;> simp
  simp only [step]
  unfold dispatch
  cases hp : parse t with
  | none => simp
  | some root =>
    have hfit := parse_cstrs hp
    split
    · rename_i ty j1 js heq
      simp only [Option.some.injEq] at heq
      subst heq
      split
      · rename_i hty
        obtain ⟨rfl, hj⟩ := hty
        obtain ⟨ev, js', rfl⟩ := List.exists_cons_of_ne_nil hj
        cases j1 with
        | str id =>
          simp only [Option.some.injEq, Json.arr.injEq, List.cons.injEq, Json.str.injEq, true_and]
          have hfj : fromJson P (.cjson td fr) cfg (print true 0 (mapNum r ev)) = fromTree P cfg (mapNum r ev) := by
            simp only [fromJson]
            obtain ⟨h1, h2⟩ := hfit
            simp only [CStrs, CStrsL_iff] at h1
            simp only [Json.height] at h2
            have h3 := heightL_le (show ev ∈ (.str (c!"EVENT") :: .str id :: ev :: js' : List Json) by simp)
            have hg := parse_print true 0 (mapNum r ev) (good_mapNum hr _ (h1 ev (by simp)))
              (by rw [height_mapNum hr]; omega) [] (by simp [Stop])
            rw [List.append_nil] at hg
            rw [hg]
          have hst := find_stack (subs_stack P (.cjson td fr) cfg r hasCb id past)
          constructor
          · intro h
            refine ⟨id, ev, js', ⟨rfl, rfl, rfl⟩, ?_⟩
            unfold deliver at h
            split at h
            · simp at h
            rename_i s hs
            rw [hs] at hst
            rw [hfj] at h
            split at h
            · rename_i e' he'
              split at h
              · rename_i k' hk'
                simp only [List.mem_singleton, Call.event.injEq] at h
                rw [← hst, Option.map_some, hk', h.1, h.2]
                exact ⟨rfl, he'⟩
              · simp at h
            · simp at h
          · rintro ⟨id', ev', rest, ⟨rfl, rfl, rfl⟩, h1, h2⟩
            rw [h1] at hst
            obtain ⟨s, hs, hk⟩ := Option.map_eq_some_iff.1 hst
            unfold deliver
            simp only [hs, hfj, h2, hk, List.mem_singleton]
        | _ => simp
      · rename_i hty
        constructor
        · intro h
          split at h <;> exact absurd h (hno _ _)
        · rintro ⟨id, ev, rest, h, -⟩
          simp only [Option.some.injEq, Json.arr.injEq, List.cons.injEq, Json.str.injEq] at h
          exact absurd ⟨h.1, by rw [h.2.2]; simp⟩ hty
    · rename_i hn
      constructor
      · simp
      · rintro ⟨id, ev, rest, h, -⟩
        simp only [Option.some.injEq] at h
        exact absurd (by rw [h]) (hn (c!"EVENT") (.str id) (ev :: rest))

/-- C90, the event: it is the one of the message if cJSON prints each of its numbers as the same number. Missing: other numbers, for which
it fails (`Double.Props.C190_messages_refuted`). -/
theorem C90_event_partial {P : Plat} {r : Bytes → Json} (hr : Renum r) (cfg : Option Config.Config) {ev : Json}
    (h : Msg.Spec.Holds P.real r ev) : fromTree P cfg (mapNum r ev) = fromTree P cfg ev :=
  Msg.fromTree_mapNum hr cfg h

/-- C90: at most one event callback is made for a message. -/
theorem C90_once (P : Plat) (b : Build) (cfg r) (hasCb : Bool) (subs : List Sub) (t : Bytes) :
    (step P b cfg r hasCb subs (.text t)).2.length ≤ 1 := by
  have hno : ∀ ty root, (notify hasCb r ty root).length ≤ 1 := by
    intro ty root; unfold notify; split <;> simp
  have hde : ∀ id ev, (deliver P b cfg r subs id ev).length ≤ 1 := by
    intro id ev
    unfold deliver
    split
    · simp
    · split
      · split <;> simp
      · simp
  simp only [step]
  unfold dispatch
  split
  · split
    · split
      · exact hde _ _
      · simp
    · split <;> exact hno _ _
  · simp

/-- An EVENT message with an empty event object. -/
def evMsg : Bytes := c!"[\"EVENT\",\"a\",{}]"

example : (stack (c!"a") [.text (c!"[\"CLOSED\",\"a\",\"bye\"]"), .subscribe (c!"a") (some 2), .subscribe (c!"b") (some 9),
    .subscribe (c!"a") (some 1)]).head? = some (some 1) := by decide +kernel
example (P : Plat) (cfg : Option Config.Config) : parse evMsg = some (.arr (.str (c!"EVENT") :: .str (c!"a") :: .obj [] :: [])) ∧
    fromTree P cfg (.obj []) = .ok Event.zero := ⟨by decide +kernel, by rfl⟩

/-! ## C91: delivered events are not checked -/

/-- C91 is false: with any signature check, and in particular one that accepts nothing, an event without id and
signature is delivered to the application. -/
theorem C91_unverified_refuted {P : Plat} {r : Bytes → Json} (hr : Renum r) (td fr cfg) (hasCb : Bool) :
    ∃ past t e, Call.event 7 e ∈
        (step P (.cjson td fr) cfg r hasCb (subsAfter P (.cjson td fr) cfg r hasCb past) (.text t)).2 ∧
      e = Event.zero := by
  refine ⟨[.subscribe (c!"a") (some 7)], evMsg, Event.zero, ?_, rfl⟩
  have hp : parse evMsg = some (.arr (.str (c!"EVENT") :: .str (c!"a") :: .obj [] :: [])) := by decide +kernel
  rw [C90_routing hr]
  exact ⟨c!"a", .obj [], [], hp, by decide, by rfl⟩

/-! ## C92: the texts sent are well formed -/

theorem height_toTree (td fr) (e : Event) : height (toTree td fr e) ≤ 10 := by
  have := heightL_tags e.tags
  unfold toTree
  simp only [height, heightM]
  omega

/-- C92: a published event is sent as an EVENT message from which a receiver reads the same event. -/
theorem C92_publish_partial (P : Plat) (cfg : Option Config.Config) (td fr) {e : Event} (h : Event.Spec.WF e)
    (ht : e.createdAt.natAbs < 10 ^ 15) (hc : ∀ c ∈ cfg, e.tags.length ≤ c.maxTags ∧ e.text.length ≤ c.maxContent) :
    ∃ t j, sendEvent (.cjson td fr) e = .ok t ∧ parse t = some (.arr [.str (c!"EVENT"), j]) ∧
      fromTree P cfg j = .ok { e with content := some e.text } := by
  obtain ⟨g1, -⟩ := good_toTree (td := td) (fr := fr) h ht
  have g2 := height_toTree td fr e
  refine ⟨c!"[\"EVENT\"," ++ print true 0 (toTree td fr e) ++ c!"]", toTree td fr e, ?_, ?_, fromTree_back P cfg td fr h ht hc⟩
  · simp only [sendEvent, toJson, Res.bind_ok, eventText]
    rw [if_neg (by simp only [List.length_append, List.length_cons, List.length_nil]; omega)]
  · have hn := need_le true (toTree td fr e) 0 g1
    obtain ⟨f, hf, e⟩ := parse_one (a := c!"EVENT") (by decide) (print true 0 (toTree td fr e) ++ c!"]")
    have et : ∀ x : Bytes, c!"[\"EVENT\"," ++ x ++ c!"]" = 0x5b :: quoted (c!"EVENT") ++ 0x2c :: (x ++ c!"]") := by
      intro x
      rw [show quoted (c!"EVENT") = c!"\"EVENT\"" by decide]
      simp
    rw [et, e, elems_last true 0 g1 (by simp only [nestingLimit]; omega) (f + 1)
      (by simp only [List.length_append] at hf; omega) []]
    rfl

/-- C92: a request whose filter text is one printed JSON value is a REQ message with the id and that value. -/
theorem C92_request_partial (subs : List Sub) (id : Bytes) (cb : Option Nat) (fmt : Bool) {j : Json} (hg : Good j)
    (hh : height j < nestingLimit) {subs' : List Sub} {t : Bytes}
    (h : subscribe subs id (print fmt 0 j) cb = .ok (subs', t)) :
    subs' = ⟨id, cb⟩ :: subs ∧ parse t = some (.arr [.str (c!"REQ"), .str id, j]) := by
  unfold subscribe at h
  split at h
  · simp at h
  rename_i hv
  simp only [Bool.not_eq_true', Bool.not_eq_false] at hv
  obtain ⟨h1, h2⟩ := valid_cstr hv
  split at h
  · simp at h
  unfold reqText at h
  simp only at h
  split at h
  · simp at h
  simp only [Res.bind_ok, Res.ok.injEq, Prod.mk.injEq] at h
  obtain ⟨hs, rfl⟩ := h
  refine ⟨hs.symm, ?_⟩
  obtain ⟨f, hf, e⟩ := parse_two (a := c!"REQ") (by decide) h1 0x2c (print fmt 0 j ++ c!"]") (by decide) (by decide)
  have hn := need_le fmt j 0 hg
  rw [h2] at e
  have et : ∀ x : Bytes, c!"[\"REQ\",\"" ++ id ++ c!"\"," ++ x ++ c!"]" =
      0x5b :: quoted (c!"REQ") ++ 0x2c :: (0x22 :: id ++ [0x22]) ++ 0x2c :: (x ++ c!"]") := by
    intro x
    rw [show quoted (c!"REQ") = c!"\"REQ\"" by decide]
    simp
  rw [et, e, if_pos rfl, elems_last fmt 0 hg (by omega) f (by simp only [List.length_append] at hf; omega) []]
  rfl

example : Event.Spec.WF Event.Props.note ∧ Event.Props.note.createdAt.natAbs < 10 ^ 15 := ⟨Event.Props.note_wf, by decide⟩
example : ∃ subs' t, subscribe [] (c!"s") (print false 0 (.obj [(c!"kinds", .arr [.num (c!"1")])])) none = .ok (subs', t) :=
  ⟨[⟨c!"s", none⟩], c!"[\"REQ\",\"s\",{\"kinds\":[1]}]", by decide +kernel⟩

/-- C92 is false in general: text after the first JSON value of the filters is not looked at, so a request can be
accepted that no receiver can read, or that carries more than one message. -/
theorem C92_trailing_refuted :
    (∃ subs' t, subscribe [] (c!"s") (c!"{} x") none = .ok (subs', t) ∧ parse t = none) ∧
    (∃ subs' t, subscribe [] (c!"s") (c!"{}][\"CLOSE\",\"s\"") none = .ok (subs', t) ∧
      drain t = ([c!"[\"REQ\",\"s\",{}]", c!"[\"CLOSE\",\"s\"]"], [])) :=
  ⟨⟨[⟨c!"s", none⟩], c!"[\"REQ\",\"s\",{} x]", by decide +kernel, by decide +kernel⟩,
    ⟨[⟨c!"s", none⟩], c!"[\"REQ\",\"s\",{}][\"CLOSE\",\"s\"]", by decide +kernel, by decide +kernel⟩⟩

end Nostr.Relay.Props
