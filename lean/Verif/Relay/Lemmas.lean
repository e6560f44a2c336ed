import Verif.Relay.Model

/-! # Lemmas about framing -/

namespace Nostr.Relay
open Nostr Nostr.Json

theorem scan_true_plain {c : UInt8} (k : Nat) (s : Bytes) (h1 : c ≠ 0x22) (h2 : c ≠ 0x5c) :
    scan k true (c :: s) = scan k true s := by
  rw [scan.eq_def]
  split <;> simp_all

theorem scan_true_quote (k : Nat) (s : Bytes) : scan k true (0x22 :: s) = scan k false s := by
  rw [scan.eq_def]
  split <;> simp_all

theorem scan_true_esc (k : Nat) (c : UInt8) (s : Bytes) : scan k true (0x5c :: c :: s) = scan k true s := by
  rw [scan.eq_def]
  rfl

theorem scan_true_end (k : Nat) : scan k true [0x5c] = none := by
  rw [scan.eq_def]
  simp [scan]

theorem scan_false (k : Nat) (c : UInt8) (s : Bytes) : scan k false (c :: s) =
    if c = 0x22 then scan k true s
    else if c = 0x5b ∨ c = 0x7b then scan (k + 1) false s
    else if c = 0x5d ∨ c = 0x7d then if k - 1 = 0 then some s else scan (k - 1) false s
    else scan k false s := by
  rw [scan.eq_def]
  split <;> simp_all

theorem scan_nil (k b) : scan k b [] = none := by rw [scan.eq_def]

/-- What the scan leaves is a proper suffix, and more input does not change the outcome. -/
theorem scan_some (n : Nat) : ∀ (s : Bytes), s.length ≤ n → ∀ k b rest, scan k b s = some rest →
    (∃ p, p ≠ [] ∧ s = p ++ rest) ∧ ∀ t, scan k b (s ++ t) = some (rest ++ t) := by
  induction n with
  | zero =>
    intro s hs k b rest h
    rw [List.length_eq_zero_iff.1 (Nat.le_zero.1 hs), scan_nil] at h
    simp at h
  | succ n ih =>
    intro s hs k b rest h
    cases s with
    | nil => rw [scan_nil] at h; simp at h
    | cons c s =>
      have hl : s.length ≤ n := by simpa using hs
      have pass : ∀ k' b', scan k' b' s = some rest → (∃ p, p ≠ [] ∧ c :: s = p ++ rest) := by
        intro k' b' h'
        obtain ⟨⟨p, hp, rfl⟩, -⟩ := ih s hl k' b' rest h'
        exact ⟨c :: p, by simp, rfl⟩
      cases b with
      | true =>
        by_cases h1 : c = 0x22
        · subst h1
          rw [scan_true_quote] at h
          refine ⟨pass _ _ h, fun t => ?_⟩
          rw [List.cons_append, scan_true_quote]
          exact (ih s hl _ _ _ h).2 t
        · by_cases h2 : c = 0x5c
          · subst h2
            cases s with
            | nil => rw [scan_true_end] at h; simp at h
            | cons d s =>
              rw [scan_true_esc] at h
              have hl' : s.length ≤ n := by simp at hl; omega
              obtain ⟨⟨p, hp, e⟩, h3⟩ := ih s hl' _ _ _ h
              refine ⟨⟨0x5c :: d :: p, by simp, by rw [e]; rfl⟩, fun t => ?_⟩
              simp only [List.cons_append]
              rw [scan_true_esc]
              exact h3 t
          · rw [scan_true_plain k s h1 h2] at h
            refine ⟨pass _ _ h, fun t => ?_⟩
            rw [List.cons_append, scan_true_plain k _ h1 h2]
            exact (ih s hl _ _ _ h).2 t
      | false =>
        rw [scan_false] at h
        simp only [List.cons_append, scan_false]
        split at h
        · rename_i h1
          simp only [h1, if_true]
          exact ⟨by simpa only [h1] using pass _ _ h, fun t => (ih s hl _ _ _ h).2 t⟩
        · rename_i h1
          simp only [h1, if_false]
          split at h
          · rename_i h2
            simp only [h2, if_true]
            exact ⟨pass _ _ h, fun t => (ih s hl _ _ _ h).2 t⟩
          · rename_i h2
            simp only [h2, if_false]
            split at h
            · rename_i h3
              simp only [h3, if_true]
              split at h
              · rename_i h4
                simp only [Option.some.injEq] at h
                subst h
                simp only [h4, if_true]
                exact ⟨⟨[c], by simp, rfl⟩, fun t => by simp⟩
              · rename_i h4
                simp only [h4, if_false]
                exact ⟨pass _ _ h, fun t => (ih s hl _ _ _ h).2 t⟩
            · rename_i h3
              simp only [h3, if_false]
              exact ⟨pass _ _ h, fun t => (ih s hl _ _ _ h).2 t⟩

theorem frame_some {s m rest : Bytes} (h : frame s = some (m, rest)) :
    s = m ++ rest ∧ m ≠ [] ∧ ∀ t, frame (s ++ t) = some (m, rest ++ t) := by
  unfold frame at h
  split at h
  · rename_i h0
    obtain ⟨r, hr, he⟩ := Option.map_eq_some_iff.1 h
    simp only [Prod.mk.injEq] at he
    obtain ⟨hm, rfl⟩ := he
    obtain ⟨⟨p, hp, e⟩, h2⟩ := scan_some s.length s (Nat.le_refl _) _ _ _ hr
    have hmp : m = p := by rw [← hm, e]; simp
    subst hmp
    refine ⟨e, hp, fun t => ?_⟩
    unfold frame
    have hh : (s ++ t).head? = some 0x5b := by
      cases s with
      | nil => simp at h0
      | cons c s => simpa using h0
    rw [if_pos hh, h2 t]
    simp only [Option.map_some, Option.some.injEq, Prod.mk.injEq, and_true]
    rw [e, List.append_assoc, List.length_append, List.length_append]
    simp
  · simp at h

/-! ## The message loop without the bounds check -/

/-- `drainLoop` without bounds. -/
def drainP : Nat → Bytes → List Bytes × Bytes
  | 0, s => ([], s)
  | f + 1, s => match frame s with
      | none => ([], s)
      | some (m, rest) => (m :: (drainP f (skipBlank rest)).1, (drainP f (skipBlank rest)).2)

theorem skipBlank_le (s : Bytes) : (skipBlank s).length ≤ s.length := by
  unfold skipBlank
  induction s with
  | nil => simp
  | cons c s ih => rw [List.dropWhile_cons]; split <;> simp <;> omega

theorem drainLoop_ok {size total : Nat} (h : total < size) : ∀ (f : Nat) (s : Bytes),
    drainLoop size total f s = .ok (drainP f s) := by
  intro f
  induction f with
  | zero => intro s; rfl
  | succ f ih =>
    intro s
    rw [drainLoop, drainP]
    cases frame s with
    | none => rfl
    | some q =>
      simp only
      rw [if_neg (by omega), ih]; rfl

theorem frame_lt {s m rest : Bytes} (h : frame s = some (m, rest)) : rest.length < s.length := by
  obtain ⟨h1, h2, -⟩ := frame_some h
  have := List.length_pos_iff.2 h2
  rw [h1, List.length_append]; omega

theorem drainP_fuel (f : Nat) : ∀ f' s, s.length < f → s.length < f' → drainP f s = drainP f' s := by
  induction f with
  | zero => intro f' s h; omega
  | succ f ih =>
    intro f' s h h'
    cases f' with
    | zero => omega
    | succ f' =>
      rw [drainP, drainP]
      split
      · rfl
      · rename_i m rest he
        have h1 := frame_lt he
        have h2 := skipBlank_le rest
        rw [ih f' (skipBlank rest) (by omega) (by omega)]

/-- The messages complete in a text and what remains. -/
def drain (s : Bytes) : List Bytes × Bytes := drainP (s.length + 1) (skipBlank s)

theorem drain_none {s : Bytes} (h : frame (skipBlank s) = none) : drain s = ([], skipBlank s) := by
  unfold drain
  rw [drainP, h]

theorem drain_some {s m rest : Bytes} (h : frame (skipBlank s) = some (m, rest)) :
    drain s = (m :: (drain rest).1, (drain rest).2) := by
  unfold drain
  rw [drainP, h]
  have h1 := frame_lt h
  have h2 := skipBlank_le s
  have h3 := skipBlank_le rest
  simp only
  rw [drainP_fuel s.length (rest.length + 1) (skipBlank rest) (by omega) (by omega)]

theorem skipBlank_append (s t : Bytes) :
    (skipBlank s = [] → skipBlank (s ++ t) = skipBlank t) ∧
    (skipBlank s ≠ [] → skipBlank (s ++ t) = skipBlank s ++ t) := by
  unfold skipBlank
  induction s with
  | nil => simp
  | cons c s ih =>
    simp only [List.cons_append, List.dropWhile_cons]
    split
    · exact ih
    · simp

theorem skipBlank_idem (s t : Bytes) : skipBlank (skipBlank s ++ t) = skipBlank (s ++ t) := by
  by_cases h : skipBlank s = []
  · rw [(skipBlank_append s t).1 h, h]; rfl
  · rw [(skipBlank_append s t).2 h]
    have h2 : ∀ s : Bytes, skipBlank (skipBlank s) = skipBlank s := by
      intro s
      unfold skipBlank
      induction s with
      | nil => rfl
      | cons c s ih =>
        rw [List.dropWhile_cons]
        split
        · exact ih
        · rename_i hc; rw [List.dropWhile_cons, if_neg hc]
    have := (skipBlank_append (skipBlank s) t).2 (by rw [h2]; exact h)
    rw [this, h2]

/-- Draining can stop at any point and go on with more data. -/
theorem drain_append (n : Nat) : ∀ s : Bytes, s.length ≤ n → ∀ t,
    drain (s ++ t) = ((drain s).1 ++ (drain ((drain s).2 ++ t)).1, (drain ((drain s).2 ++ t)).2) := by
  induction n with
  | zero =>
    intro s hs t
    rw [List.length_eq_zero_iff.1 (Nat.le_zero.1 hs)]
    have : drain [] = ([], []) := by decide
    simp [this]
  | succ n ih =>
    intro s hs t
    cases h : frame (skipBlank s) with
    | none =>
      rw [drain_none h]
      simp only [List.nil_append]
      have : drain (skipBlank s ++ t) = drain (s ++ t) := by
        unfold drain
        rw [skipBlank_idem]
        have h1 := skipBlank_le (s ++ t)
        have h2 : (skipBlank (s ++ t)).length ≤ (skipBlank s ++ t).length := by
          rw [← skipBlank_idem]; exact skipBlank_le _
        exact drainP_fuel _ _ _ (by omega) (by omega)
      rw [this]
    | some q =>
      obtain ⟨m, rest⟩ := q
      have hne : skipBlank s ≠ [] := by
        intro h0; rw [h0] at h; simp [frame] at h
      obtain ⟨h1, h2, h3⟩ := frame_some h
      have h4 := frame_lt h
      have h5 := skipBlank_le s
      have h6 : frame (skipBlank (s ++ t)) = some (m, rest ++ t) := by
        rw [(skipBlank_append s t).2 hne]; exact h3 t
      rw [drain_some h6, drain_some h, ih rest (by omega) t]
      rfl

/-- What remains is a suffix. -/
theorem drain_suffix (n : Nat) : ∀ s : Bytes, s.length ≤ n → ∃ p, s = p ++ (drain s).2 := by
  have hs : ∀ s : Bytes, ∃ p, s = p ++ skipBlank s := by
    intro s; exact ⟨s.takeWhile isBlank, by unfold skipBlank; simp⟩
  induction n with
  | zero =>
    intro s h
    rw [List.length_eq_zero_iff.1 (Nat.le_zero.1 h)]
    exact ⟨[], by decide⟩
  | succ n ih =>
    intro s hl
    obtain ⟨p, hp⟩ := hs s
    cases h : frame (skipBlank s) with
    | none => rw [drain_none h]; exact ⟨p, hp⟩
    | some q =>
      obtain ⟨m, rest⟩ := q
      rw [drain_some h]
      have h4 := frame_lt h
      have h5 := skipBlank_le s
      obtain ⟨p', hp'⟩ := ih rest (by omega)
      refine ⟨p ++ m ++ p', ?_⟩
      simp only
      conv => lhs; rw [hp, (frame_some h).1, hp']
      simp

theorem takeWhile_cstr {s : Bytes} (h : CStr s) : s.takeWhile (· != 0) = s := by
  apply takeWhile_all
  intro c hc
  simp only [bne_iff_ne]
  exact fun h0 => h (h0 ▸ hc)

theorem absorb_ok {st : Rx} {chunk : Bytes} (h : (st.buf ++ chunk).length < st.size) :
    absorb st chunk = .ok (⟨(drain ((st.buf ++ chunk).takeWhile (· != 0))).2, st.size⟩,
      (drain ((st.buf ++ chunk).takeWhile (· != 0))).1) := by
  unfold absorb
  simp only
  rw [if_neg (by omega)]
  have h1 : ((st.buf ++ chunk).takeWhile (· != 0)).length ≤ (st.buf ++ chunk).length :=
    (List.takeWhile_sublist _).length_le
  rw [drainLoop_ok (by omega)]
  rfl

/-! ## JSON texts -/

/-- Scanning over the text leaves nesting and string state as they were. -/
def Neutral (t : Bytes) : Prop := ∀ k x, 0 < k → scan k false (t ++ x) = scan k false x

theorem Neutral.append {a b : Bytes} (ha : Neutral a) (hb : Neutral b) : Neutral (a ++ b) := by
  intro k x hk
  rw [List.append_assoc, ha k _ hk, hb k _ hk]

theorem neutral_nil : Neutral [] := fun _ _ _ => rfl

/-- A character without meaning to the scanner. -/
def plainC (c : UInt8) : Bool :=
  decide (c ≠ 0x22) && decide (c ≠ 0x5b) && decide (c ≠ 0x7b) && decide (c ≠ 0x5d) && decide (c ≠ 0x7d)

theorem neutral_plain {t : Bytes} (h : ∀ c ∈ t, plainC c = true) : Neutral t := by
  induction t with
  | nil => exact neutral_nil
  | cons c t ih =>
    intro k x hk
    have hc := h c (by simp)
    simp only [plainC, Bool.and_eq_true, decide_eq_true_eq] at hc
    obtain ⟨⟨⟨⟨h1, h2⟩, h3⟩, h4⟩, h5⟩ := hc
    rw [List.cons_append, scan_false]
    simp only [h1, h2, h3, h4, h5, if_false, or_self]
    exact ih (fun c hc => h c (by simp [hc])) k x hk

theorem plain_table : ∀ n < 256, ((UInt8.ofNat n ≤ 0x20 → plainC (UInt8.ofNat n) = true) ∧
    (isNumChar (UInt8.ofNat n) = true → plainC (UInt8.ofNat n) = true)) := by decide +kernel

theorem plain_ws {c : UInt8} (h : c ≤ 0x20) : plainC c = true := by
  have := plain_table c.toNat c.toNat_lt
  rw [UInt8.ofNat_toNat] at this
  exact this.1 h

theorem plain_num {c : UInt8} (h : isNumChar c = true) : plainC c = true := by
  have := plain_table c.toNat c.toNat_lt
  rw [UInt8.ofNat_toNat] at this
  exact this.2 h

theorem skipWs_split (s : Bytes) : ∃ w, s = w ++ skipWs s ∧ Neutral w := by
  refine ⟨s.takeWhile (fun c => decide (c ≤ 0x20)), by unfold skipWs; simp, ?_⟩
  apply neutral_plain
  intro c hc
  have : ∀ (s : Bytes), c ∈ s.takeWhile (fun c => decide (c ≤ 0x20)) → c ≤ 0x20 := by
    intro s
    induction s with
    | nil => simp
    | cons d s ih =>
      rw [List.takeWhile_cons]
      split
      · rename_i hd
        intro hc
        rcases List.mem_cons.1 hc with rfl | hc
        · simpa using hd
        · exact ih hc
      · simp
  exact plain_ws (this s hc)

theorem strEnd_scan (n : Nat) : ∀ s : Bytes, s.length ≤ n → ∀ raw rest, strEnd s = some (raw, rest) →
    s = raw ++ 0x22 :: rest ∧ ∀ k x, scan k true (raw ++ 0x22 :: x) = scan k false x := by
  induction n with
  | zero =>
    intro s hs raw rest h
    rw [List.length_eq_zero_iff.1 (Nat.le_zero.1 hs)] at h
    simp [strEnd] at h
  | succ n ih =>
    intro s hs raw rest h
    cases s with
    | nil => simp [strEnd] at h
    | cons c s =>
      have hl : s.length ≤ n := by simpa using hs
      by_cases h1 : c = 0x22
      · subst h1
        simp only [strEnd, Option.some.injEq, Prod.mk.injEq] at h
        obtain ⟨rfl, rfl⟩ := h
        exact ⟨rfl, fun k x => scan_true_quote k x⟩
      · by_cases h2 : c = 0x5c
        · subst h2
          cases s with
          | nil => simp [strEnd] at h
          | cons d s =>
            rw [strEnd_esc] at h
            obtain ⟨⟨raw', rest'⟩, h3, h4⟩ := Option.map_eq_some_iff.1 h
            simp only [Prod.mk.injEq] at h4
            obtain ⟨rfl, rfl⟩ := h4
            obtain ⟨h5, h6⟩ := ih s (by simp at hl; omega) _ _ h3
            refine ⟨by rw [h5]; rfl, fun k x => ?_⟩
            simp only [List.cons_append]
            rw [scan_true_esc]
            exact h6 k x
        · rw [strEnd_plain h1 h2] at h
          obtain ⟨⟨raw', rest'⟩, h3, h4⟩ := Option.map_eq_some_iff.1 h
          simp only [Prod.mk.injEq] at h4
          obtain ⟨rfl, rfl⟩ := h4
          obtain ⟨h5, h6⟩ := ih s hl _ _ h3
          refine ⟨by rw [h5]; rfl, fun k x => ?_⟩
          simp only [List.cons_append]
          rw [scan_true_plain k _ h1 h2]
          exact h6 k x

theorem parseStr_scan {s k rest : Bytes} (h : parseStr s = some (k, rest)) :
    ∃ t, s = t ++ rest ∧ Neutral (0x22 :: t) := by
  unfold parseStr at h
  split at h
  · simp at h
  · rename_i raw r hr
    obtain ⟨d, -, he⟩ := Option.map_eq_some_iff.1 h
    simp only [Prod.mk.injEq] at he
    obtain ⟨-, rfl⟩ := he
    obtain ⟨h1, h2⟩ := strEnd_scan _ s (Nat.le_refl _) _ _ hr
    refine ⟨raw ++ [0x22], by rw [h1]; simp, ?_⟩
    intro k x hk
    rw [List.cons_append, scan_false, if_pos rfl, List.append_assoc]
    exact h2 k x

theorem digits_le (s : Bytes) : (digits s).length ≤ s.length := (List.takeWhile_sublist _).length_le

theorem strtod_le (s : Bytes) : (strtodPrefix s).length ≤ s.length := by
  unfold strtodPrefix
  simp only
  generalize hsign : (if s.head? = some 0x2d ∨ s.head? = some 0x2b then s.take 1 else []) = sign
  have h1 : sign.length ≤ s.length := by
    rw [← hsign]; split <;> simp <;> omega
  generalize hs1 : s.drop sign.length = s1
  have e1 : s1.length = s.length - sign.length := by rw [← hs1]; simp
  have h2 := digits_le s1
  generalize digits s1 = ip at h2 ⊢
  generalize hs2 : s1.drop ip.length = s2
  have e2 : s2.length = s1.length - ip.length := by rw [← hs2]; simp
  generalize hfp : (if s2.head? = some 0x2e then (0x2e :: digits s2.tail : Bytes) else []) = fp
  have h3 : fp.length ≤ s2.length := by
    rw [← hfp]
    split
    · rename_i hh
      cases s2 with
      | nil => simp at hh
      | cons c s2 => simp only [List.length_cons, List.tail_cons]; have := digits_le s2; omega
    · simp
  split
  · simp
  · generalize hs3 : s2.drop fp.length = s3
    have e3 : s3.length = s2.length - fp.length := by rw [← hs3]; simp
    have h4 : ∀ ep : Bytes, ep.length ≤ s3.length → (sign ++ (ip ++ fp) ++ ep).length ≤ s.length := by
      intro ep hep
      simp only [List.length_append]
      omega
    apply h4
    split
    · rename_i hh
      have hpos : 0 < s3.length := by
        cases s3 with
        | nil => simp at hh
        | cons c s3 => simp
      generalize ht : s3.tail = t
      have e4 : t.length = s3.length - 1 := by rw [← ht]; simp
      generalize hes : (if t.head? = some 0x2d ∨ t.head? = some 0x2b then t.take 1 else []) = es
      have h5 : es.length ≤ t.length := by rw [← hes]; split <;> simp <;> omega
      split
      · simp
      · simp only [List.length_append, List.length_take]
        have := digits_le (t.drop es.length)
        simp only [List.length_drop] at this
        omega
    · simp

theorem token_scan (s : Bytes) : ∃ t, s = t ++ s.drop (strtodPrefix ((s.take 63).takeWhile isNumChar)).length ∧
    Neutral t := by
  generalize hn : (strtodPrefix ((s.take 63).takeWhile isNumChar)).length = n
  have hle := strtod_le ((s.take 63).takeWhile isNumChar)
  rw [hn] at hle
  refine ⟨s.take n, by simp, ?_⟩
  apply neutral_plain
  intro c hc
  apply plain_num
  have key : ∀ (u : Bytes) (m : Nat), n ≤ (u.takeWhile isNumChar).length → ∀ c ∈ u.take n, isNumChar c = true := by
    intro u m h c hc
    have : u.take n = (u.takeWhile isNumChar).take n := by
      conv => lhs; rw [← List.takeWhile_append_dropWhile (p := isNumChar) (l := u)]
      rw [List.take_append_of_le_length h]
    rw [this] at hc
    have hmem := List.mem_of_mem_take hc
    clear this hc h
    induction u with
    | nil => simp at hmem
    | cons d u ih =>
      rw [List.takeWhile_cons] at hmem
      split at hmem
      · rename_i hd
        rcases List.mem_cons.1 hmem with rfl | hm
        · exact hd
        · exact ih hm
      · simp at hmem
  have h63 : n ≤ 63 := by
    have h1 : ((s.take 63).takeWhile isNumChar).length ≤ (s.take 63).length := (List.takeWhile_sublist _).length_le
    simp at h1; omega
  have := key (s.take 63) 0 hle c (by rw [List.take_take, Nat.min_eq_left h63]; exact hc)
  exact this

theorem drop_prefix {p s : Bytes} (h : p.isPrefixOf s = true) : s = p ++ s.drop p.length := by
  obtain ⟨t, rfl⟩ := List.isPrefixOf_iff_prefix.1 h
  simp

theorem neutral_bracket {o c : UInt8} {t : Bytes} (ho : o = 0x5b ∨ o = 0x7b) (hc : c = 0x5d ∨ c = 0x7d)
    (h : Neutral t) : Neutral (o :: t ++ [c]) := by
  intro k x hk
  have h1 : o ≠ 0x22 := by rcases ho with rfl | rfl <;> decide
  have h2 : c ≠ 0x22 ∧ ¬ (c = 0x5b ∨ c = 0x7b) := by rcases hc with rfl | rfl <;> decide
  simp only [List.cons_append, List.append_assoc]
  rw [scan_false]
  simp only [h1, ho, if_true, if_false]
  rw [h (k + 1) _ (by omega), List.nil_append, scan_false]
  simp only [h2.1, h2.2, hc, if_true, if_false]
  rw [if_neg (by omega), Nat.add_sub_cancel]

/-- A parsed value is neutral to the scanner. -/
theorem parse_neutral : ∀ f : Nat,
    (∀ d s j rest, parseValue f d s = some (j, rest) → ∃ t, s = t ++ rest ∧ Neutral t) ∧
    (∀ d s l rest, parseElems f d s = some (l, rest) → ∃ t, s = t ++ 0x5d :: rest ∧ Neutral t) ∧
    (∀ d s m rest, parseMembers f d s = some (m, rest) → ∃ t, s = t ++ 0x7d :: rest ∧ Neutral t) := by
  intro f
  induction f with
  | zero =>
    refine ⟨?_, ?_, ?_⟩
    · intro d s j rest h; rw [parseValue.eq_def] at h; simp at h
    · intro d s j rest h; rw [parseElems.eq_def] at h; simp at h
    · intro d s j rest h; rw [parseMembers.eq_def] at h; simp at h
  | succ f ih =>
    obtain ⟨ih1, ih2, ih3⟩ := ih
    have comma : Neutral [0x2c] := neutral_plain (by decide)
    have colon : Neutral [0x3a] := neutral_plain (by decide)
    refine ⟨?_, ?_, ?_⟩
    · intro d s j rest h
      rw [parseValue.eq_def] at h
      simp only at h
      split at h
      · rename_i hp
        simp only [Option.some.injEq, Prod.mk.injEq] at h
        exact ⟨c!"null", by rw [← h.2]; exact drop_prefix hp, neutral_plain (by decide)⟩
      split at h
      · rename_i hp
        simp only [Option.some.injEq, Prod.mk.injEq] at h
        exact ⟨c!"false", by rw [← h.2]; exact drop_prefix hp, neutral_plain (by decide)⟩
      split at h
      · rename_i hp
        simp only [Option.some.injEq, Prod.mk.injEq] at h
        exact ⟨c!"true", by rw [← h.2]; exact drop_prefix hp, neutral_plain (by decide)⟩
      cases s with
      | nil => simp at h
      | cons c r =>
      simp only at h
      split at h
      · rename_i hc
        obtain ⟨⟨k, r'⟩, hp, h⟩ := Option.map_eq_some_iff.1 h
        simp only [Prod.mk.injEq] at h
        obtain ⟨t, h1, h2⟩ := parseStr_scan hp
        refine ⟨0x22 :: t, by rw [hc, h1, ← h.2]; rfl, h2⟩
      split at h
      · split at h
        · simp at h
        · simp only [Option.some.injEq, Prod.mk.injEq] at h
          obtain ⟨t, h1, h2⟩ := token_scan (c :: r)
          exact ⟨t, by rw [← h.2]; exact h1, h2⟩
      split at h
      · rename_i hc
        subst hc
        split at h
        · simp at h
        obtain ⟨w, hw, hn⟩ := skipWs_split r
        split at h
        · simp at h
        rename_i d' r' hs
        split at h
        · rename_i hd
          simp only [Option.some.injEq, Prod.mk.injEq] at h
          refine ⟨0x5b :: w ++ [0x5d], ?_, neutral_bracket (by simp) (by simp) hn⟩
          conv => lhs; rw [hw, hs, hd, h.2]
          simp
        · obtain ⟨q, hp, h⟩ := Option.map_eq_some_iff.1 h
          simp only [Prod.mk.injEq] at h
          obtain ⟨t, h1, h2⟩ := ih2 _ _ q.1 q.2 hp
          refine ⟨0x5b :: (w ++ t) ++ [0x5d], ?_, neutral_bracket (by simp) (by simp) (hn.append h2)⟩
          conv => lhs; rw [hw, h1, h.2]
          simp
      split at h
      · rename_i hc
        subst hc
        split at h
        · simp at h
        obtain ⟨w, hw, hn⟩ := skipWs_split r
        split at h
        · simp at h
        rename_i d' r' hs
        split at h
        · rename_i hd
          simp only [Option.some.injEq, Prod.mk.injEq] at h
          refine ⟨0x7b :: w ++ [0x7d], ?_, neutral_bracket (by simp) (by simp) hn⟩
          conv => lhs; rw [hw, hs, hd, h.2]
          simp
        · obtain ⟨q, hp, h⟩ := Option.map_eq_some_iff.1 h
          simp only [Prod.mk.injEq] at h
          obtain ⟨t, h1, h2⟩ := ih3 _ _ q.1 q.2 hp
          refine ⟨0x7b :: (w ++ t) ++ [0x7d], ?_, neutral_bracket (by simp) (by simp) (hn.append h2)⟩
          conv => lhs; rw [hw, h1, h.2]
          simp
      · simp at h
    · intro d s l rest h
      rw [parseElems.eq_def] at h
      simp only at h
      split at h
      · simp at h
      rename_i j s1 hp
      obtain ⟨t1, e1, n1⟩ := ih1 _ _ _ _ hp
      obtain ⟨w, hw, hn⟩ := skipWs_split s1
      split at h
      · simp at h
      rename_i c r hs
      obtain ⟨w2, hw2, hn2⟩ := skipWs_split r
      split at h
      · rename_i hc
        obtain ⟨q, hq, h⟩ := Option.map_eq_some_iff.1 h
        simp only [Prod.mk.injEq] at h
        obtain ⟨t, e2, n2⟩ := ih2 _ _ q.1 q.2 hq
        refine ⟨t1 ++ (w ++ ([0x2c] ++ (w2 ++ t))), ?_, n1.append (hn.append (comma.append (hn2.append n2)))⟩
        conv => lhs; rw [e1, hw, hs, hc, hw2, e2, h.2]
        simp
      split at h
      · rename_i hc
        simp only [Option.some.injEq, Prod.mk.injEq] at h
        refine ⟨t1 ++ w, ?_, n1.append hn⟩
        conv => lhs; rw [e1, hw, hs, hc, h.2]
        simp
      · simp at h
    · intro d s m rest h
      rw [parseMembers.eq_def] at h
      simp only at h
      cases s with
      | nil => simp at h
      | cons q0 s0 =>
      simp only at h
      split at h
      · simp at h
      rename_i hq0
      have hq0 : q0 = 0x22 := Decidable.byContradiction hq0
      split at h
      · simp at h
      rename_i k s1 hk
      obtain ⟨tk, ek, nk⟩ := parseStr_scan hk
      obtain ⟨w, hw, hn⟩ := skipWs_split s1
      split at h
      · simp at h
      rename_i col s2 hs1
      split at h
      · simp at h
      rename_i hcol
      have hcol : col = 0x3a := Decidable.byContradiction hcol
      obtain ⟨w2, hw2, hn2⟩ := skipWs_split s2
      split at h
      · simp at h
      rename_i j s3 hp
      obtain ⟨t1, e1, n1⟩ := ih1 _ _ _ _ hp
      obtain ⟨w3, hw3, hn3⟩ := skipWs_split s3
      split at h
      · simp at h
      rename_i c r hs3
      have hpre : q0 :: s0 = (0x22 :: tk) ++ (w ++ ([0x3a] ++ (w2 ++ (t1 ++ (w3 ++ c :: r))))) := by
        conv => lhs; rw [hq0, ek, hw, hs1, hcol, hw2, e1, hw3, hs3]
        simp
      obtain ⟨w4, hw4, hn4⟩ := skipWs_split r
      split at h
      · rename_i hc
        obtain ⟨q, hq, h⟩ := Option.map_eq_some_iff.1 h
        simp only [Prod.mk.injEq] at h
        obtain ⟨t, e2, n2⟩ := ih3 _ _ q.1 q.2 hq
        refine ⟨(0x22 :: tk) ++ (w ++ ([0x3a] ++ (w2 ++ (t1 ++ (w3 ++ ([0x2c] ++ (w4 ++ t))))))), ?_,
          nk.append (hn.append (colon.append (hn2.append (n1.append (hn3.append (comma.append (hn4.append n2)))))))⟩
        rw [hpre]
        conv => lhs; rw [hc, hw4, e2, h.2]
        simp
      split at h
      · rename_i hc
        simp only [Option.some.injEq, Prod.mk.injEq] at h
        refine ⟨(0x22 :: tk) ++ (w ++ ([0x3a] ++ (w2 ++ (t1 ++ w3)))), ?_,
          nk.append (hn.append (colon.append (hn2.append (n1.append hn3))))⟩
        rw [hpre, hc, h.2]
        simp
      · simp at h

end Nostr.Relay
