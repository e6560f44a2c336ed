import Verif.Nip05.Docs

/-! # The relays of a NIP-05 document -/

namespace Nostr.Nip05
open Nostr Nostr.Json

/-- Relay texts that JSON prints unchanged, without a bracket. -/
structure RelayText (r : Bytes) : Prop where
  plain : Plain r
  same : escape r = r
  bracket : ∀ c ∈ r, c ≠ 0x5d

theorem count_in {r : Bytes} (h : RelayText r) : ∀ p s, escaped p = false →
    ∃ q, escaped q = false ∧ countLoop p true (r ++ s) = countLoop q true s := by
  have h1 := h.plain.quote
  have h2 := h.plain.slash
  have h3 := h.bracket
  clear h
  induction r with
  | nil => exact fun p s hp => ⟨p, hp, rfl⟩
  | cons c r ih =>
    intro p s hp
    obtain ⟨q, hq, e⟩ := ih (fun x hx => h1 x (List.mem_cons_of_mem _ hx)) (fun x hx => h2 x (List.mem_cons_of_mem _ hx))
      (fun x hx => h3 x (List.mem_cons_of_mem _ hx)) (c :: p) s (escaped_cons (h2 c (by simp)) p)
    refine ⟨q, hq, ?_⟩
    rw [← e, List.cons_append, countLoop, if_neg (h3 c (by simp)), if_neg (fun h => h1 c (by simp) h.1)]

theorem count_str {r : Bytes} (h : RelayText r) (p s : Bytes) (hp : escaped p = false) :
    ∃ q, escaped q = false ∧ countLoop p false (quoted r ++ s) = 1 + countLoop q false s := by
  obtain ⟨q, hq, e⟩ := count_in h (0x22 :: p) (0x22 :: s) (escaped_cons (by decide) p)
  refine ⟨0x22 :: q, escaped_cons (by decide) q, ?_⟩
  have h2 : quoted r ++ s = 0x22 :: (r ++ 0x22 :: s) := by simp [quoted, h.same]
  rw [h2, countLoop, if_neg (by decide), if_pos ⟨rfl, hp⟩]
  simp only [Bool.not_false, Bool.false_eq_true, if_false, Nat.zero_add]
  rw [e, countLoop, if_neg (by decide), if_pos ⟨rfl, hq⟩]
  simp

theorem collect_in {r : Bytes} (h : RelayText r) (n : Nat) : ∀ p u s, escaped p = false →
    ∃ q, escaped q = false ∧ collect n p (some u) (r ++ s) = collect n q (some (u ++ r)) s := by
  have h1 := h.plain.quote
  have h2 := h.plain.slash
  clear h
  induction r with
  | nil => exact fun p u s hp => ⟨p, hp, by simp⟩
  | cons c r ih =>
    intro p u s hp
    obtain ⟨q, hq, e⟩ := ih (fun x hx => h1 x (List.mem_cons_of_mem _ hx)) (fun x hx => h2 x (List.mem_cons_of_mem _ hx))
      (c :: p) (u ++ [c]) s (escaped_cons (h2 c (by simp)) p)
    refine ⟨q, hq, ?_⟩
    have : u ++ c :: r = u ++ [c] ++ r := by simp
    rw [this, ← e, List.cons_append, collect, if_neg (fun h => h1 c (by simp) h.1)]

theorem collect_str {r : Bytes} (h : RelayText r) (n : Nat) (p s : Bytes) :
    ∃ q, escaped q = false ∧ collect (n + 1) p none (quoted r ++ s) =
      if validRelay r then r :: collect n q none s else collect (n + 1) q none s := by
  obtain ⟨q, hq, e⟩ := collect_in h (n + 1) (0x22 :: p) [] (0x22 :: s) (escaped_cons (by decide) p)
  refine ⟨0x22 :: q, escaped_cons (by decide) q, ?_⟩
  have h2 : quoted r ++ s = 0x22 :: (r ++ 0x22 :: s) := by simp [quoted, h.same]
  rw [h2, collect, if_neg (by decide), if_pos rfl]
  · rw [e, collect, if_pos ⟨rfl, hq⟩]
    simp
  · simp

theorem elems_cons (fmt : Bool) (d : Nat) (r : Bytes) (rs : List Bytes) :
    printElems fmt d ((r :: rs).map Json.str) = quoted r ++ (match rs with
      | [] => []
      | _ :: _ => 0x2c :: (if fmt then [0x20] else []) ++ printElems fmt d (rs.map Json.str)) := by
  rw [List.map_cons, printElems.eq_def]
  cases rs <;> simp [print]

theorem count_elems (fmt : Bool) (d : Nat) (s : Bytes) : ∀ (rs : List Bytes), (∀ r ∈ rs, RelayText r) → ∀ p, escaped p = false →
    countLoop p false (printElems fmt d (rs.map Json.str) ++ 0x5d :: s) = rs.length
  | [], _, p, _ => by simp [printElems, countLoop]
  | r :: rs, h, p, hp => by
      rw [elems_cons, List.append_assoc]
      cases rs with
      | nil =>
        obtain ⟨q, hq, e⟩ := count_str (h r (by simp)) p ([] ++ 0x5d :: s) hp
        simp only at e ⊢
        rw [e]; simp [countLoop]
      | cons r2 rs =>
        simp only
        obtain ⟨q, hq, e⟩ := count_str (h r (by simp)) p
          (0x2c :: (if fmt then [0x20] else []) ++ printElems fmt d ((r2 :: rs).map Json.str) ++ 0x5d :: s) hp
        rw [e]
        have ih := fun q hq => count_elems fmt d s (r2 :: rs) (fun x hx => h x (List.mem_cons_of_mem _ hx)) q hq
        have hc : ∀ (x : UInt8), x = 0x2c ∨ x = 0x20 → x ≠ 0x5d ∧ x ≠ 0x22 ∧ x ≠ 0x5c := by
          rintro x (rfl | rfl) <;> decide
        cases fmt
        · simp only [Bool.false_eq_true, if_false, List.cons_append, List.nil_append]
          rw [countLoop, if_neg (by decide), if_neg (by simp), ih _ (escaped_cons (by decide) _)]
          simp only [List.length_cons]; omega
        · simp only [if_true, List.cons_append, List.nil_append]
          rw [countLoop, if_neg (by decide), if_neg (by simp), countLoop, if_neg (by decide), if_neg (by simp),
            ih _ (escaped_cons (by decide) _)]
          simp only [List.length_cons]; omega

theorem collect_skip (n : Nat) (p s : Bytes) (c : UInt8) (h1 : c ≠ 0x5d) (h2 : c ≠ 0x22) :
    collect (n + 1) p none (c :: s) = collect (n + 1) (c :: p) none s := by
  rw [collect, if_neg h1, if_neg h2]
  simp

theorem collect_stop (n : Nat) (p s : Bytes) : collect n p none (0x5d :: s) = [] := by
  cases n <;> simp [collect]

theorem collect_elems (fmt : Bool) (d : Nat) (s : Bytes) : ∀ (rs : List Bytes), (∀ r ∈ rs, RelayText r) → ∀ n p, rs.length ≤ n →
    collect n p none (printElems fmt d (rs.map Json.str) ++ 0x5d :: s) = rs.filter validRelay
  | [], _, n, p, _ => by simp [printElems, collect_stop]
  | r :: rs, h, 0, p, hn => by simp at hn
  | r :: rs, h, n + 1, p, hn => by
      rw [elems_cons, List.append_assoc]
      simp only [List.length_cons, Nat.add_le_add_iff_right] at hn
      cases rs with
      | nil =>
        obtain ⟨q, hq, e⟩ := collect_str (h r (by simp)) n p ([] ++ 0x5d :: s)
        simp only at e ⊢
        rw [e]
        simp only [List.nil_append, collect_stop]
        cases hv : validRelay r <;> simp [hv]
      | cons r2 rs =>
        simp only
        obtain ⟨q, hq, e⟩ := collect_str (h r (by simp)) n p
          (0x2c :: (if fmt then [0x20] else []) ++ printElems fmt d ((r2 :: rs).map Json.str) ++ 0x5d :: s)
        rw [e]
        have hrs := fun x hx => h x (List.mem_cons_of_mem _ hx)
        have ih := collect_elems fmt d s (r2 :: rs) hrs
        have hn' : (r2 :: rs).length ≤ n + 1 := by omega
        obtain ⟨m, rfl⟩ : ∃ m, n = m + 1 := ⟨n - 1, by simp at hn; omega⟩
        have step : ∀ k, (r2 :: rs).length ≤ k + 1 → collect (k + 1) q none (0x2c :: (if fmt then [0x20] else []) ++
            printElems fmt d ((r2 :: rs).map Json.str) ++ 0x5d :: s) = (r2 :: rs).filter validRelay := by
          intro k hk
          cases fmt
          · simp only [Bool.false_eq_true, if_false, List.cons_append, List.nil_append]
            rw [collect_skip _ _ _ _ (by decide) (by decide), ih _ _ hk]
          · simp only [if_true, List.cons_append, List.nil_append]
            rw [collect_skip _ _ _ _ (by decide) (by decide), collect_skip _ _ _ _ (by decide) (by decide), ih _ _ hk]
        rw [step m hn, step (m + 1) hn']
        cases hv : validRelay r <;> simp [hv]

theorem relays_plain : Plain (c!"relays") ∧ escape (c!"relays") = c!"relays" :=
  ⟨⟨by decide, by decide⟩, by decide⟩

/-- What the collected texts look like, for every list text. -/
theorem collect_valid : ∀ (s : Bytes) (n : Nat) (p : Bytes) (u : Option Bytes), ∀ r ∈ collect n p u s, validRelay r = true := by
  intro s
  induction s with
  | nil => intro n p u r hr; cases n <;> cases u <;> simp [collect] at hr
  | cons c s ih =>
    intro n p u r hr
    cases u with
    | none =>
      cases n with
      | zero => simp [collect] at hr
      | succ n =>
        rw [collect] at hr
        · split at hr
          · simp at hr
          · split at hr
            · exact ih _ _ _ r hr
            · exact ih _ _ _ r hr
        · simp
    | some u =>
      rw [collect] at hr
      split at hr
      · split at hr
        · rename_i hv
          rcases List.mem_cons.1 hr with rfl | hr
          · exact hv
          · exact ih _ _ _ r hr
        · exact ih _ _ _ r hr
      · exact ih _ _ _ r hr

theorem collect_count : ∀ (s : Bytes) (n : Nat) (p : Bytes) (u : Option Bytes), (u = none ∨ 1 ≤ n) →
    (collect n p u s).length ≤ n := by
  intro s
  induction s with
  | nil => intro n p u _; cases n <;> cases u <;> simp [collect]
  | cons c s ih =>
    intro n p u hu
    cases u with
    | none =>
      cases n with
      | zero => simp [collect]
      | succ n =>
        rw [collect]
        · split
          · simp
          · split
            · exact ih _ _ _ (.inr (by omega))
            · exact ih _ _ _ (.inl rfl)
        · simp
    | some u =>
      have hn : 1 ≤ n := by simpa using hu
      rw [collect]
      split
      · split
        · have := ih (n - 1) (c :: p) none (.inl rfl)
          simp only [List.length_cons]; omega
        · exact ih _ _ _ (.inl rfl)
      · exact ih _ _ _ (.inr hn)

theorem mem_collect : ∀ (s : Bytes) (n : Nat) (p : Bytes) (u : Option Bytes), ∀ r ∈ collect n p u s,
    ∃ a b, u.getD [] ++ s = a ++ r ++ b := by
  intro s
  induction s with
  | nil => intro n p u r hr; cases n <;> cases u <;> simp [collect] at hr
  | cons c s ih =>
    intro n p u r hr
    have drop : ∀ u : Bytes, (∃ a b, s = a ++ r ++ b) → ∃ a b, u ++ c :: s = a ++ r ++ b := by
      rintro u ⟨a, b, rfl⟩
      exact ⟨u ++ c :: a, b, by simp⟩
    cases u with
    | none =>
      cases n with
      | zero => simp [collect] at hr
      | succ n =>
        rw [collect] at hr
        · split at hr
          · simp at hr
          · split at hr
            · have := ih _ _ _ r hr
              simpa using drop [] (by simpa using this)
            · have := ih _ _ _ r hr
              simpa using drop [] (by simpa using this)
        · simp
    | some u =>
      rw [collect] at hr
      split at hr
      · split at hr
        · rcases List.mem_cons.1 hr with rfl | hr
          · exact ⟨[], c :: s, by simp⟩
          · have := ih _ _ _ r hr
            simpa using drop u (by simpa using this)
        · have := ih _ _ _ r hr
          simpa using drop u (by simpa using this)
      · obtain ⟨a, b, e⟩ := ih _ _ _ r hr
        exact ⟨a, b, by simpa using e⟩

/-- A WebSocket address: the scheme and something behind it. -/
def WsUrl (r : Bytes) : Prop := (∃ t, r = c!"wss://" ++ t) ∨ (∃ t, t ≠ [] ∧ r = c!"ws://" ++ t)

theorem validRelay_ws {r : Bytes} (h : validRelay r = true) : WsUrl r := by
  unfold validRelay at h
  split at h
  · cases h
  · rename_i hl
    simp only [not_or] at hl
    simp only [Bool.or_eq_true, beq_iff_eq] at h
    rcases h with h | h
    · exact .inl ⟨r.drop 6, by rw [← h, List.take_append_drop]⟩
    · refine .inr ⟨r.drop 5, ?_, by rw [← h, List.take_append_drop]⟩
      intro h0
      have := congrArg List.length h0
      simp at this; omega

theorem hasU_none : ∀ (r : Bytes), (∀ c ∈ r, c ≠ 0x5c) → hasU r = false
  | [], _ => rfl
  | [_], _ => rfl
  | a :: b :: s, h => by
      rw [hasU, hasU_none (b :: s) fun c hc => h c (List.mem_cons_of_mem _ hc)]
      simp [h a (by simp)]

theorem validRelay_iff {r : Bytes} (h : ∀ c ∈ r, c ≠ 0x5c) : validRelay r = true ↔ WsUrl r := by
  refine ⟨validRelay_ws, ?_⟩
  have hu := hasU_none r h
  rintro (⟨t, rfl⟩ | ⟨t, ht, rfl⟩)
  · simp only [validRelay, hu]
    simp
  · simp only [validRelay, hu]
    have : 1 ≤ t.length := by
      cases t with
      | nil => exact absurd rfl ht
      | cons _ _ => simp
    simp; omega

instance (r : Bytes) : Decidable (WsUrl r) :=
  decidable_of_iff ((r.take 6 = c!"wss://") ∨ (r.take 5 = c!"ws://" ∧ 6 ≤ r.length)) (by
    constructor
    · rintro (h | ⟨h, hl⟩)
      · exact .inl ⟨r.drop 6, by rw [← h, List.take_append_drop]⟩
      · refine .inr ⟨r.drop 5, ?_, by rw [← h, List.take_append_drop]⟩
        intro h0
        have := congrArg List.length h0
        simp at this; omega
    · rintro (⟨t, rfl⟩ | ⟨t, ht, rfl⟩)
      · exact .inl (by simp)
      · refine .inr ⟨by simp, ?_⟩
        cases t with
        | nil => exact absurd rfl ht
        | cons _ _ => simp)

namespace Props

/-- C108, every document: at most 100 relays are given, each is a WebSocket address and a piece of the document. -/
theorem C108_shape (doc name key : Bytes) (rs : List Bytes) (h : parseResponse doc name true = .ok (key, rs)) :
    rs.length ≤ 100 ∧ ∀ r ∈ rs, WsUrl r ∧ ∃ a b, doc = a ++ r ++ b := by
  unfold parseResponse at h
  obtain ⟨k, -, h⟩ := Res.bind_eq_ok.1 h
  simp only [if_true] at h
  obtain ⟨x, hx, h⟩ := Res.bind_eq_ok.1 h
  simp only [Res.ok.injEq, Prod.mk.injEq] at h
  obtain ⟨rfl, rfl⟩ := h
  unfold relaysOf at hx
  cases s1 : strstr doc (c!"\"relays\"") with
  | none => simp [s1] at hx; subst hx; simp
  | some p =>
    rw [s1] at hx
    simp only at hx
    obtain ⟨a, ea, -⟩ := strstr_some _ _ _ _ s1
    split at hx
    · rename_i q hq
      cases s2 : strstr (0x7b :: q) (0x22 :: k ++ [0x22]) with
      | none =>
        rw [s2] at hx
        simp only [Res.ok.injEq] at hx
        subst hx; simp
      | some r =>
        rw [s2] at hx
        simp only at hx
        obtain ⟨b, eb, -⟩ := strstr_some _ _ _ _ s2
        split at hx
        · rename_i list hlist
          split at hx
          · simp at hx; subst hx; simp
          · split at hx
            · cases hx
            · rename_i h1 h2
              simp only [Res.ok.injEq] at hx
              subst hx
              refine ⟨?_, ?_⟩
              · have := collect_count list (countLoop [] false list) [] none (.inl rfl)
                omega
              · intro u hu
                refine ⟨validRelay_ws (collect_valid _ _ _ _ u hu), ?_⟩
                obtain ⟨x, y, e⟩ := mem_collect _ _ _ _ u hu
                simp only [Option.getD_none, List.nil_append] at e
                obtain ⟨w1, -, e1⟩ := skipColon_split (p.drop 8)
                obtain ⟨w2, -, e2⟩ := skipColon_split (r.drop (k.length + 2))
                refine ⟨a ++ p.take 8 ++ w1 ++ b ++ r.take (k.length + 2) ++ w2 ++ 0x5b :: x, y, ?_⟩
                rw [ea]
                conv => lhs; rw [← List.take_append_drop 8 p, e1, hq, eb, ← List.take_append_drop (k.length + 2) r, e2, hlist, e]
                simp
        · simp at hx; subst hx; simp
    · simp at hx; subst hx; simp

/-- C108, documents as they are served: if the relays object lists texts for the key (in lower case) that JSON writes
unchanged and that have no bracket, the relays given are exactly the WebSocket addresses among them, in order; more than
100 listed texts make the call fail.  Missing: texts with escapes or brackets, keys in upper case; see the refutations. -/
theorem C108_documents_partial (fmt : Bool) (bef rest kb ka : List (Bytes × Json)) (rs : List Bytes) (name key : Bytes)
    (hb : GoodM bef) (hkb : GoodM kb) (h1 : c!"relays" ∉ Spec.textsM bef) (h2 : key ∉ Spec.textsM kb) (hk : Spec.IsKey key)
    (hrs : ∀ r ∈ rs, RelayText r)
    (hkey : parseResponse (print fmt 0 (.obj (bef ++ (c!"relays", .obj (kb ++ (key, Spec.list rs) :: ka)) :: rest))) name false =
      .ok (key, [])) :
    parseResponse (print fmt 0 (.obj (bef ++ (c!"relays", .obj (kb ++ (key, Spec.list rs) :: ka)) :: rest))) name true =
      if rs.length ≤ 100 then .ok (key, rs.filter fun r => decide (WsUrl r)) else .err .invalidParam := by
  generalize hdoc : print fmt 0 (.obj (bef ++ (c!"relays", .obj (kb ++ (key, Spec.list rs) :: ka)) :: rest)) = doc at hkey ⊢
  unfold parseResponse at hkey ⊢
  obtain ⟨k, hk1, hkey⟩ := Res.bind_eq_ok.1 hkey
  simp only [Bool.false_eq_true, if_false, Res.ok.injEq, Prod.mk.injEq, and_true] at hkey
  subst hkey
  rw [hk1, Res.bind_ok]
  simp only [if_true]
  have hp := key_escape hk
  obtain ⟨u, -, e⟩ := find_obj relays_plain.1 relays_plain.2 fmt 0 bef rest (.obj (kb ++ (k, Spec.list rs) :: ka)) hb h1 []
  rw [List.append_nil, hdoc] at e
  obtain ⟨w, -, e2⟩ := find_obj hp.1 hp.2 fmt (0 + 1) kb ka (Spec.list rs) hkb h2 (u ++ [])
  have hflt : rs.filter validRelay = rs.filter fun r => decide (WsUrl r) := by
    apply List.filter_congr
    intro r hr
    rw [Bool.eq_iff_iff, decide_eq_true_eq]
    exact validRelay_iff (hrs r hr).plain.slash
  have hr : relaysOf doc k = if rs.length ≤ 100 then .ok (rs.filter validRelay) else .err .invalidParam := by
    unfold relaysOf
    have e' : strstr doc (c!"\"relays\"") = _ := e
    rw [e']
    simp only
    have d8 : ∀ s : Bytes, (quoted (c!"relays") ++ s).drop 8 = s := drop_quoted relays_plain.2
    rw [d8]
    obtain ⟨t, et⟩ := obj_head fmt (0 + 1) (kb ++ (k, Spec.list rs) :: ka)
    rw [et, show (0x7b :: t ++ (u ++ []) : Bytes) = 0x7b :: (t ++ (u ++ [])) from rfl, skipColon_stop (.inl rfl)]
    simp only
    rw [show (0x7b :: (t ++ (u ++ [])) : Bytes) = 0x7b :: t ++ (u ++ []) from rfl, ← et]
    have e2' : strstr (print fmt (0 + 1) (.obj (kb ++ (k, Spec.list rs) :: ka)) ++ (u ++ [])) (0x22 :: k ++ [0x22]) = _ := e2
    rw [e2']
    simp only
    rw [drop_quoted hp.2]
    have e4 : print fmt (0 + 1 + 1) (Spec.list rs) ++ (w ++ (u ++ [])) =
        0x5b :: (printElems fmt 2 (rs.map Json.str) ++ 0x5d :: (w ++ (u ++ []))) := by
      rw [Spec.list, print]; simp
    rw [e4, skipColon_stop (.inr (.inr rfl))]
    simp only
    rw [count_elems fmt 2 _ rs hrs [] rfl, collect_elems fmt 2 _ rs hrs _ _ (Nat.le_refl _)]
    by_cases h0 : rs.length = 0
    · have : rs = [] := List.length_eq_zero_iff.1 h0
      subst this; simp
    · rw [if_neg h0]
      by_cases h100 : rs.length ≤ 100
      · rw [if_neg (by omega), if_pos h100]
      · rw [if_pos (by omega), if_neg h100]
  rw [hr, hflt]
  split <;> rfl

/-- A public key in lower-case hex. -/
def someKey : Bytes := c!"b0635d6a9851d3aed0cd6c495b282167acf761729078d975fc341b22650b07b9"

example : parseResponse (print true 0 (.obj [(c!"names", Spec.table [(c!"bob", someKey)]), (c!"relays",
      .obj [(someKey, Spec.list [c!"wss://a.example", c!"http://b.example", c!"ws://c"])])])) (c!"bob") true =
    .ok (someKey, [c!"wss://a.example", c!"ws://c"]) := by
  decide +kernel

/-- The document `{"names":{"bob":key},"relays":{key':[list]}}` with the list as a raw text. -/
def rawDoc (key' list : Bytes) : Bytes :=
  c!"{\"names\":{\"bob\":\"" ++ someKey ++ c!"\"},\"relays\":{\"" ++ key' ++ c!"\":[" ++ list ++ c!"]}}"

/-- C108 fails for escapes: `wss:\/\/a` is a JSON text of `wss://a` and is not given. -/
theorem C108_escape_refuted :
    (∃ tree, Json.parse (rawDoc someKey (c!"\"wss:\\/\\/a\"")) = some tree ∧
      (Spec.member (c!"relays") tree).bind (Spec.member someKey) = some (Spec.list [c!"wss://a"])) ∧
    parseResponse (rawDoc someKey (c!"\"wss:\\/\\/a\"")) (c!"bob") true = .ok (someKey, []) := by
  refine ⟨⟨.obj [(c!"names", .obj [(c!"bob", .str someKey)]), (c!"relays", .obj [(someKey, .arr [.str (c!"wss://a")])])], ?_, ?_⟩, ?_⟩ <;>
    decide +kernel

/-- C108 fails for brackets: a relay with an IPv6 address ends the list. -/
theorem C108_bracket_refuted :
    (∃ tree, Json.parse (rawDoc someKey (c!"\"wss://[::1]/\",\"wss://b\"")) = some tree ∧
      (Spec.member (c!"relays") tree).bind (Spec.member someKey) = some (Spec.list [c!"wss://[::1]/", c!"wss://b"])) ∧
    parseResponse (rawDoc someKey (c!"\"wss://[::1]/\",\"wss://b\"")) (c!"bob") true = .ok (someKey, []) := by
  refine ⟨⟨.obj [(c!"names", .obj [(c!"bob", .str someKey)]), (c!"relays", .obj [(someKey, .arr
    [.str (c!"wss://[::1]/"), .str (c!"wss://b")])])], ?_, ?_⟩, ?_⟩ <;> decide +kernel

end Props
end Nostr.Nip05
