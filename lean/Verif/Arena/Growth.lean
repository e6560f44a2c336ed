import Verif.Arena.Cases

/-! # Property theorems: the memory an event takes while its nonce is changed (C180) -/

namespace Nostr.Arena.Props
open Nostr Nostr.Arena

/-! ## Specification -/

/-- The attempts of `nostr_nip13_mine_event` (nip13.c:218-243) with respect to the memory of the event: attempt number `k` sets the nonce `k`.
(What is between, the time and the id, is stored in the structure of the event itself.) -/
inductive Tries (cfg : Option Config.Config) (A : Alloc) (tagsMem : Bool) (locals : Nat) (target : Int) : Nat → St → St → Prop
  | start {s : St} : Tries cfg A tagsMem locals target 0 s s
  | next {k : Nat} {s s1 s2 : St} : Tries cfg A tagsMem locals target k s s1 → addNonce cfg A tagsMem s1 locals k target = .ok (s2, none) →
      Tries cfg A tagsMem locals target (k + 1) s s2

/-! ## Sizes -/

theorem moveTags_counts {ob nb : Nat} : ∀ {ts : List (Nat × Nat)} {m m' : Mem} {ts' : List (Nat × Nat)}, moveTags ob nb m ts = .ok (m', ts') →
    ts'.map Prod.snd = ts.map Prod.snd
  | [], m, m', ts', h => by simp only [moveTags, Res.ok.injEq, Prod.mk.injEq] at h; rw [← h.2]
  | t :: ts, m, m', ts', h => by
      unfold moveTags at h
      cases h1 : movePtrs ob nb m (shift ob nb t.1) t.2 with
      | ub => rw [h1] at h; cases h
      | err => rw [h1] at h; cases h
      | ok m1 =>
        rw [h1, Res.bind_ok] at h
        cases h2 : moveTags ob nb m1 ts with
        | ub => rw [h2] at h; cases h
        | err => rw [h2] at h; cases h
        | ok r =>
          rw [h2, Res.bind_ok] at h
          simp only [Res.ok.injEq, Prod.mk.injEq] at h
          rw [← h.2]
          simp only [List.map_cons]
          rw [moveTags_counts (m' := r.1) (ts' := r.2) h2]

theorem grow_size {A : Alloc} {s s' : St} {n : Nat} (h : grow A s n = .ok (some s')) :
    s'.used = s.used ∧ s'.cap = n ∧ s'.tags.map Prod.snd = s.tags.map Prod.snd := by
  unfold grow at h
  split at h
  · simp at h
  · rename_i nb _
    split at h
    · simp only [Res.ok.injEq, Option.some.injEq] at h
      subst h; exact ⟨rfl, rfl, rfl⟩
    · cases h2 : moveTags s.base nb (realloc s.mem s.base s.cap nb n) s.tags with
      | ub => rw [h2] at h; cases h
      | err => rw [h2] at h; cases h
      | ok r =>
        rw [h2, Res.bind_ok] at h
        simp only [Res.ok.injEq, Option.some.injEq] at h
        subst h
        exact ⟨rfl, rfl, moveTags_counts (m' := r.1) (ts' := r.2) h2⟩

theorem doubling13_le {f cap required n : Nat} (h : doubling13 f cap required = some n) : n = cap ∨ n < 2 * required := by
  induction f generalizing cap with
  | zero => simp [doubling13] at h
  | succ f ih =>
    unfold doubling13 at h
    split at h
    · have h1 : cap * 2 % 2 ^ 64 ≤ cap * 2 := Nat.mod_le _ _
      rcases ih h with h2 | h2 <;> omega
    · simp only [Option.some.injEq] at h
      omega

theorem ensure_size {A : Alloc} {s s' : St} {n : Nat} (h : ensure A s n = .ok (some s')) :
    s'.used = s.used ∧ (s'.cap = s.cap ∨ s'.cap < 2 * (s.used + n)) ∧ s'.tags.map Prod.snd = s.tags.map Prod.snd := by
  unfold ensure at h
  split at h
  · simp only [Res.ok.injEq, Option.some.injEq] at h
    subst h; exact ⟨rfl, .inl rfl, rfl⟩
  · split at h
    · cases h
    · rename_i c hd
      obtain ⟨g1, g2, g3⟩ := grow_size h
      have h1 : (s.used + n) % 2 ^ 64 ≤ s.used + n := Nat.mod_le _ _
      refine ⟨g1, ?_, g3⟩
      rcases doubling13_le hd with h2 | h2 <;> omega

theorem strdup_size {A : Alloc} {s s' : St} {t : Bytes} {p : Nat} (h : strdup A s t = .ok (some (p, s'))) :
    s'.used = s.used + (t.length + 1) ∧ (s'.cap = s.cap ∨ s'.cap < 2 * s'.used) ∧ s'.tags.map Prod.snd = s.tags.map Prod.snd := by
  unfold strdup at h
  cases h1 : ensure A s (t.length + 1) with
  | ub => rw [h1] at h; cases h
  | err => rw [h1] at h; cases h
  | ok r =>
    rw [h1, Res.bind_ok] at h
    cases r with
    | none => simp at h
    | some s1 =>
      simp only at h
      cases h2 : writeBytes s1.mem (s1.base + s1.used) (t ++ [0]) with
      | ub => rw [h2] at h; cases h
      | err => rw [h2] at h; cases h
      | ok m =>
        rw [h2, Res.bind_ok] at h
        simp only [Res.ok.injEq, Option.some.injEq, Prod.mk.injEq] at h
        obtain ⟨g1, g2, g3⟩ := ensure_size h1
        obtain ⟨-, rfl⟩ := h
        exact ⟨by simp only [g1], by simp only; omega, g3⟩

theorem setValue_size {s s' : St} {i j p : Nat} (h : setValue s i j p = .ok s') : s'.used = s.used ∧ s'.cap = s.cap ∧ s'.tags = s.tags := by
  unfold setValue at h
  cases h1 : writePtr s.mem ((s.tags.getD i (0, 0)).1 + 8 * j) p with
  | ub => rw [h1] at h; cases h
  | err => rw [h1] at h; cases h
  | ok m =>
    rw [h1, Res.bind_ok] at h
    simp only [Res.ok.injEq] at h
    subst h; exact ⟨rfl, rfl, rfl⟩

theorem bind_inv {α β : Type} {x : Res α} {f : α → Res β} {y : β} (h : (x >>= f) = .ok y) : ∃ a, x = .ok a ∧ f a = .ok y := by
  cases x with
  | ub => cases h
  | err => cases h
  | ok a => exact ⟨a, rfl, h⟩

theorem expand_size {A : Alloc} {s s' : St} {i : Nat} (h : expand A s i = .ok (some s')) :
    s'.used = s.used + 24 ∧ (s'.cap = s.cap ∨ s'.cap < 2 * s'.used) := by
  unfold expand at h
  obtain ⟨r, h1, h⟩ := bind_inv h
  cases r with
  | none => simp at h
  | some s1 =>
    simp only at h
    obtain ⟨_, -, h⟩ := bind_inv h
    obtain ⟨_, -, h⟩ := bind_inv h
    obtain ⟨_, -, h⟩ := bind_inv h
    obtain ⟨_, -, h⟩ := bind_inv h
    obtain ⟨_, -, h⟩ := bind_inv h
    obtain ⟨g1, g2, -⟩ := ensure_size h1
    simp only [Res.ok.injEq, Option.some.injEq] at h
    subst h
    exact ⟨by simp only [g1], by simp only; omega⟩

theorem setTarget_size {A : Alloc} {s s' : St} {i : Nat} {t : Bytes} (h : setTarget A s i t = .ok (s', none)) :
    s'.used = s.used + (t.length + 1) ∧ (s'.cap = s.cap ∨ s'.cap < 2 * s'.used) := by
  unfold setTarget at h
  obtain ⟨r, h1, h⟩ := bind_inv h
  cases r with
  | none => simp at h
  | some q =>
    obtain ⟨p, s1⟩ := q
    simp only at h
    obtain ⟨s2, h2, h⟩ := bind_inv h
    simp only [Res.ok.injEq, Prod.mk.injEq, and_true] at h
    subst h
    obtain ⟨g1, g2, -⟩ := strdup_size h1
    obtain ⟨k1, k2, -⟩ := setValue_size h2
    exact ⟨by omega, by omega⟩

theorem updateNonce_size {A : Alloc} {s s' : St} {i : Nat} {nonce t : Bytes} (h : updateNonce A s i nonce (some t) = .ok (s', none)) :
    s'.used = s.used + (nonce.length + 1) + (t.length + 1) + (if (s.tags.map Prod.snd).getD i 0 < 3 then 24 else 0) ∧
      (s'.cap = s.cap ∨ s'.cap < 2 * s'.used) := by
  unfold updateNonce at h
  obtain ⟨r, h1, h⟩ := bind_inv h
  cases r with
  | none => simp at h
  | some q =>
    obtain ⟨p, s1⟩ := q
    simp only at h
    obtain ⟨s2, h2, h⟩ := bind_inv h
    obtain ⟨g1, g2, g3⟩ := strdup_size h1
    obtain ⟨k1, k2, k3⟩ := setValue_size h2
    have hc : (s2.tags.getD i (0, 0)).2 = (s.tags.map Prod.snd).getD i 0 := by
      rw [k3, ← g3]
      simp only [List.getD_eq_getElem?_getD, List.getElem?_map]
      cases s1.tags[i]? <;> rfl
    rw [← hc]
    split at h
    · rename_i hlt
      rw [if_pos hlt]
      obtain ⟨r2, h3, h⟩ := bind_inv h
      cases r2 with
      | none => simp at h
      | some s3 =>
        simp only at h
        obtain ⟨e1, e2⟩ := expand_size h3
        obtain ⟨t1, t2⟩ := setTarget_size h
        exact ⟨by omega, by omega⟩
    · rename_i hlt
      rw [if_neg hlt]
      obtain ⟨t1, t2⟩ := setTarget_size h
      exact ⟨by omega, by omega⟩

/-! ## One attempt -/

/-- The event has the tags `pre`, none of them a nonce, then a nonce tag with a nonce, then `post`. -/
def Has (s : St) (pre : List (List Bytes)) (v1 : Bytes) (rest : List Bytes) (post : List (List Bytes)) : Prop :=
  ∃ os, Inv s os ∧ texts os = (pre ++ (c!"nonce" :: v1 :: rest) :: post).map (·.map some)

theorem try_ok {cfg : Option Config.Config} {s : St} {pre post : List (List Bytes)} {v1 : Bytes} {rest : List Bytes} (h : Has s pre v1 rest post)
    (hpre : ∀ t ∈ pre, t.head? ≠ some (c!"nonce")) {A : Alloc} (hA : A.Valid) (tagsMem : Bool) (locals : Nat) {n : Nat} {target : Int}
    (hn : n < 2 ^ 64) (hp : 0 < target) (ht : target < 2 ^ 31) :
    addNonce cfg A tagsMem s locals n target = updateNonce A s pre.length (Num.decNat n) (some (Num.decInt target)) ∧
    (s.tags.map Prod.snd).getD pre.length 0 = rest.length + 2 ∧
    ((∃ s', updateNonce A s pre.length (Num.decNat n) (some (Num.decInt target)) = .ok (s', none) ∧
      Has s' pre (Num.decNat n) (Num.decInt target :: rest.drop 1) post) ∨
     ∃ s', updateNonce A s pre.length (Num.decNat n) (some (Num.decInt target)) = .ok (s', some .memory)) := by
  obtain ⟨os, i, t⟩ := h
  generalize hts : pre ++ (c!"nonce" :: v1 :: rest) :: post = ts at *
  have hf := findNonce_ok (m := s.mem) 0 i.arrays (fun p t hl => ⟨(i.texts p t hl).1, (i.texts p t hl).2, Inv.bound i hl⟩) t
  rw [← i.tags] at hf
  have hidx : Nip13.findNonce ts = some pre.length := by
    unfold Nip13.findNonce
    rw [List.findIdx?_eq_some_iff_getElem]
    refine ⟨by rw [← hts]; simp, ?_, ?_⟩
    · simp [← hts, Nip13.isNonce]
    · intro j hj
      have hjp : ts[j]'(by rw [← hts]; simp; omega) = pre[j] := by
        simp only [← hts]
        rw [List.getElem_append_left hj]
      rw [hjp]
      have := hpre pre[j] (List.getElem_mem hj)
      simp [Nip13.isNonce, this]
  have hk : pre.length < ts.length := by rw [← hts]; simp
  have hko : pre.length < os.length := by
    have := congrArg List.length t
    simp only [texts, List.length_map] at this
    omega
  have hrow : os[pre.length].vals.map Prod.snd = (c!"nonce" :: v1 :: rest).map some := by
    have := congrArg (fun l => l[pre.length]?) t
    simp only [texts, List.getElem?_map, List.getElem?_eq_getElem hko, List.getElem?_eq_getElem hk, Option.map_some, Option.some.injEq] at this
    rw [this]
    simp [← hts]
  have hlen : os[pre.length].vals.length = rest.length + 2 := by
    have := congrArg List.length hrow
    simp only [List.length_map, List.length_cons] at this
    omega
  refine ⟨?_, ?_, ?_⟩
  · unfold addNonce
    rw [hf, hidx, Res.bind_ok]
    simp only [Option.map_some, Nat.add_zero, gt_iff_lt, if_pos hp]
  · rw [i.tags]
    simp only [List.getD_eq_getElem?_getD, List.getElem?_map, List.getElem?_eq_getElem hko, Option.map_some, Option.getD_some, Obj.tag]
    exact hlen
  · rcases updateNonce_ok i hA hko (by omega) (decNat_small hn).1 (decNat_small hn).2 (target := some (Num.decInt target))
      (fun t e1 => by
        simp only [Option.some.injEq] at e1
        subst e1
        exact decInt_small (by omega) ht) with ⟨s1, os1, e1, i1, -, t1⟩ | ⟨s1, os1, e1, -⟩
    · refine .inl ⟨s1, e1, os1, i1, ?_⟩
      rw [t1, t, hrow, ← hts]
      simp [renewed]
    · exact .inr ⟨s1, e1⟩

theorem target_length {target : Int} (hp : 0 < target) (ht : target < 2 ^ 31) : 1 ≤ (Num.decInt target).length ∧ (Num.decInt target).length ≤ 10 := by
  unfold Num.decInt
  rw [if_neg (by omega)]
  exact ⟨Num.decNat_pos _, Num.decNat_length (by omega) (by omega)⟩

/-- **C180**, what an attempt takes: the texts of the nonce and of the difficulty with their ends, every time (and once an array of three
addresses), and the block is at most twice what is taken. -/
theorem C180_attempt_partial {cfg : Option Config.Config} {s s' : St} {pre post : List (List Bytes)} {v1 : Bytes} {rest : List Bytes}
    (h : Hist cfg s (pre ++ (c!"nonce" :: v1 :: rest) :: post)) (hpre : ∀ t ∈ pre, t.head? ≠ some (c!"nonce")) {A : Alloc} (hA : A.Valid)
    (tagsMem : Bool) (locals : Nat) {n : Nat} {target : Int} (hn : n < 2 ^ 64) (hp : 0 < target) (ht : target < 2 ^ 31)
    (hs : addNonce cfg A tagsMem s locals n target = .ok (s', none)) :
    s'.used = s.used + ((Num.decNat n).length + 1) + ((Num.decInt target).length + 1) + (if rest = [] then 24 else 0) ∧
      s'.used ≤ s'.cap ∧ (s'.cap = s.cap ∨ s'.cap < 2 * s'.used) := by
  obtain ⟨e1, e2, e3⟩ := try_ok (cfg := cfg) (hist_inv h) hpre hA tagsMem locals hn hp ht
  rw [e1] at hs
  obtain ⟨u1, u2⟩ := updateNonce_size hs
  rw [e2] at u1
  refine ⟨?_, ?_, u2⟩
  · rw [u1]
    cases rest with
    | nil => rfl
    | cons x l => simp
  · rcases e3 with ⟨s1, h1, os, i, -⟩ | ⟨s1, h1⟩
    · rw [hs] at h1
      simp only [Res.ok.injEq, Prod.mk.injEq, and_true] at h1
      subst h1
      exact i.used
    · rw [hs] at h1
      simp at h1

/-- **C180**, mining: `k` attempts take at least four bytes each, and at most 32 each (and 24 once); all other tags are there, and the nonce
tag has the last nonce. -/
theorem C180_attempts_partial {cfg : Option Config.Config} {s s' : St} {pre post : List (List Bytes)} {v1 : Bytes} {rest : List Bytes}
    (h : Hist cfg s (pre ++ (c!"nonce" :: v1 :: rest) :: post)) (hpre : ∀ t ∈ pre, t.head? ≠ some (c!"nonce")) {A : Alloc} (hA : A.Valid)
    (tagsMem : Bool) (locals : Nat) {k : Nat} {target : Int} (hk : k ≤ 2 ^ 64) (hp : 0 < target) (ht : target < 2 ^ 31)
    (hs : Tries cfg A tagsMem locals target k s s') :
    s.used + 4 * k ≤ s'.used ∧ s'.used ≤ s.used + 24 + 32 * k ∧ s'.used ≤ s'.cap ∧ (s'.cap = s.cap ∨ s'.cap < 2 * s'.used) := by
  have htl := target_length hp ht
  have key : ∃ w r, Has s' pre w r post ∧ s.used + 4 * k ≤ s'.used ∧ s'.used + (if r = [] then 24 else 0) ≤ s.used + 24 + 32 * k ∧
      (s'.cap = s.cap ∨ s'.cap < 2 * s'.used) := by
    induction hs with
    | start => exact ⟨v1, rest, hist_inv h, by omega, by split <;> omega, .inl rfl⟩
    | @next k s s1 s2 _ hstep ih =>
      obtain ⟨w, r, hh, l1, l2, l3⟩ := ih h (by omega)
      obtain ⟨e1, e2, e3⟩ := try_ok (cfg := cfg) hh hpre hA tagsMem locals (n := k) (by omega) hp ht
      rw [e1] at hstep
      obtain ⟨u1, u2⟩ := updateNonce_size hstep
      rw [e2] at u1
      have d1 := Num.decNat_pos k
      have d2 := Num.decNat_length (n := k) (k := 20) (by omega) (by omega)
      have hr : (if r.length + 2 < 3 then 24 else 0) = if r = [] then 24 else 0 := by
        cases r with
        | nil => rfl
        | cons x l => simp
      rw [hr] at u1
      rcases e3 with ⟨s3, h3, g⟩ | ⟨s3, h3⟩
      · rw [hstep] at h3
        simp only [Res.ok.injEq, Prod.mk.injEq, and_true] at h3
        subst h3
        exact ⟨_, _, g, by omega, by rw [if_neg (by simp)]; omega, by omega⟩
      · rw [hstep] at h3
        simp at h3
  obtain ⟨w, r, ⟨os, i, -⟩, l1, l2, l3⟩ := key
  exact ⟨l1, by split at l2 <;> omega, i.used, l3⟩

/-! ## A run of any length -/

/-- Nothing is behind the block. -/
def Behind (s : St) : Prop := ∀ x, s.base + s.cap ≤ x → s.mem x = none

open Classical in
/-- An allocator that enlarges the block where it is, if nothing is in the way. -/
noncomputable def inPlace : Alloc := fun s size =>
  if 0 < s.base ∧ s.base + size ≤ 2 ^ 62 ∧ ∀ x, s.base + s.cap ≤ x → x < s.base + size → s.mem x = none then some s.base else none

theorem inPlace_valid : inPlace.Valid := by
  intro s size nb h
  unfold inPlace at h
  split at h
  · rename_i hc
    simp only [Option.some.injEq] at h
    subst h
    refine ⟨hc.1, by omega, by omega, fun x h1 h2 => ?_⟩
    by_cases hx : x < s.base + s.cap
    · exact .inl ⟨h1, hx⟩
    · exact .inr (hc.2.2 x (by omega) h2)
  · simp at h

theorem writePtr_none {m m' : Mem} {a p : Nat} (h : writePtr m a p = .ok m') (x : Nat) (hx : m x = none) : m' x = none := by
  unfold writePtr at h
  split at h
  · rename_i hm
    simp only [Res.ok.injEq] at h
    subst h
    simp only
    split
    · rename_i hr
      have : ∀ n a, mapped m a n = true → a ≤ x → x < a + n → m x ≠ none := by
        intro n
        induction n with
        | zero => intro a _ h1 h2; omega
        | succ n ih =>
          intro a h h1 h2
          simp only [mapped, Bool.and_eq_true] at h
          by_cases he : x = a
          · subst he; exact Option.isSome_iff_ne_none.1 h.1
          · exact ih (a + 1) h.2 (by omega) (by omega)
      exact absurd hx (this 8 a hm hr.1 hr.2)
    · exact hx
  · cases h

theorem writeBytes_none {t : Bytes} : ∀ {m m' : Mem} {a : Nat}, writeBytes m a t = .ok m' → ∀ x, m x = none → m' x = none := by
  induction t with
  | nil => intro m m' a h x hx; simp only [writeBytes, Res.ok.injEq] at h; rw [← h]; exact hx
  | cons b t ih =>
    intro m m' a h x hx
    unfold writeBytes at h
    split at h
    · rename_i hm
      refine ih h x ?_
      split
      · rename_i he; subst he; rw [hx] at hm; simp at hm
      · exact hx
    · cases h

theorem ensure_room {s : St} {n : Nat} (hb : Behind s) (h0 : 0 < s.base) (h1 : s.base ≤ 2 ^ 60) (h2 : s.used + n ≤ 2 ^ 60) (hn : s.used ≤ s.cap) :
    ensure inPlace s n ≠ .ok none ∧ ∀ s', ensure inPlace s n = .ok (some s') → Behind s' ∧ s'.base = s.base ∧ s'.used ≤ s'.cap ∧ s.used + n ≤ s'.cap := by
  have hm : (s.used + n) % 2 ^ 64 = s.used + n := Nat.mod_eq_of_lt (by omega)
  unfold ensure
  rw [hm]
  split
  · rename_i hle
    refine ⟨by simp, fun s' h => ?_⟩
    simp only [Res.ok.injEq, Option.some.injEq] at h
    subst h
    exact ⟨hb, rfl, hn, hle⟩
  · rename_i hle
    split
    · exact ⟨by simp, fun s' h => by cases h⟩
    · rename_i c hd
      have hc := doubling13_le hd
      have hge : s.used + n ≤ c := by
        have : ∀ f cap, doubling13 f cap (s.used + n) = some c → s.used + n ≤ c := by
          intro f
          induction f with
          | zero => intro cap h; simp [doubling13] at h
          | succ f ih =>
            intro cap h
            unfold doubling13 at h
            split at h
            · exact ih _ h
            · simp only [Option.some.injEq] at h; omega
        exact this _ _ hd
      have ha : inPlace s c = some s.base := by
        unfold inPlace
        rw [if_pos ⟨h0, by omega, fun x hx _ => hb x hx⟩]
      unfold grow
      rw [ha]
      simp only
      rw [if_pos trivial]
      refine ⟨by simp, fun s' h => ?_⟩
      simp only [Res.ok.injEq, Option.some.injEq] at h
      subst h
      refine ⟨fun x hx => ?_, rfl, by simp only; omega, hge⟩
      have hx : s.base + c ≤ x := hx
      show realloc s.mem s.base s.cap s.base c x = none
      unfold realloc
      rw [if_neg (by omega), if_neg (by omega)]
      exact hb x (by omega)

theorem strdup_room {s : St} {t : Bytes} (hb : Behind s) (h0 : 0 < s.base) (h1 : s.base ≤ 2 ^ 60) (h2 : s.used + (t.length + 1) ≤ 2 ^ 60) (hn : s.used ≤ s.cap) :
    strdup inPlace s t ≠ .ok none ∧ ∀ p s', strdup inPlace s t = .ok (some (p, s')) → Behind s' ∧ s'.base = s.base ∧ s'.used ≤ s'.cap := by
  obtain ⟨r1, r2⟩ := ensure_room hb h0 h1 h2 hn
  unfold strdup
  constructor
  · intro h
    obtain ⟨r, e1, h⟩ := bind_inv h
    cases r with
    | none => exact r1 e1
    | some s1 =>
      simp only at h
      obtain ⟨m, -, h⟩ := bind_inv h
      simp at h
  · intro p s' h
    obtain ⟨r, e1, h⟩ := bind_inv h
    cases r with
    | none => simp at h
    | some s1 =>
      simp only at h
      obtain ⟨m, e2, h⟩ := bind_inv h
      simp only [Res.ok.injEq, Option.some.injEq, Prod.mk.injEq] at h
      obtain ⟨-, rfl⟩ := h
      obtain ⟨b1, b2, b3, b4⟩ := r2 s1 e1
      obtain ⟨g1, -, -⟩ := ensure_size e1
      exact ⟨fun x hx => writeBytes_none e2 x (b1 x hx), b2, by simp only; omega⟩

theorem setValue_room {s s' : St} {i j p : Nat} (hb : Behind s) (h : setValue s i j p = .ok s') : Behind s' ∧ s'.base = s.base := by
  unfold setValue at h
  obtain ⟨m, e, h⟩ := bind_inv h
  simp only [Res.ok.injEq] at h
  subst h
  exact ⟨fun x hx => writePtr_none e x (hb x hx), rfl⟩

theorem setTarget_room {s : St} {i : Nat} {t : Bytes} (hb : Behind s) (h0 : 0 < s.base) (h1 : s.base ≤ 2 ^ 60) (h2 : s.used + (t.length + 1) ≤ 2 ^ 60)
    (hn : s.used ≤ s.cap) : (∀ s' x, setTarget inPlace s i t ≠ .ok (s', some x)) ∧
      ∀ s', setTarget inPlace s i t = .ok (s', none) → Behind s' ∧ s'.base = s.base := by
  obtain ⟨r1, r2⟩ := strdup_room hb h0 h1 h2 hn
  unfold setTarget
  constructor
  · intro s' x h
    obtain ⟨r, e1, h⟩ := bind_inv h
    cases r with
    | none => exact r1 e1
    | some q =>
      simp only at h
      obtain ⟨m, -, h⟩ := bind_inv h
      simp at h
  · intro s' h
    obtain ⟨r, e1, h⟩ := bind_inv h
    cases r with
    | none => simp at h
    | some q =>
      simp only at h
      obtain ⟨s2, e2, h⟩ := bind_inv h
      simp only [Res.ok.injEq, Prod.mk.injEq, and_true] at h
      subst h
      obtain ⟨b1, b2, -⟩ := r2 q.1 q.2 e1
      obtain ⟨c1, c2⟩ := setValue_room b1 e2
      exact ⟨c1, by rw [c2, b2]⟩

/-- With room behind the block no memory is refused, if the tag has three values already. -/
theorem updateNonce_room {s : St} {i : Nat} {nonce t : Bytes} (hb : Behind s) (h0 : 0 < s.base) (h1 : s.base ≤ 2 ^ 60)
    (h2 : s.used + (nonce.length + 1) + (t.length + 1) ≤ 2 ^ 60) (hn : s.used ≤ s.cap) (h3 : 3 ≤ (s.tags.map Prod.snd).getD i 0) :
    (∀ s' x, updateNonce inPlace s i nonce (some t) ≠ .ok (s', some x)) ∧
      ∀ s', updateNonce inPlace s i nonce (some t) = .ok (s', none) → Behind s' ∧ s'.base = s.base := by
  obtain ⟨r1, r2⟩ := strdup_room (t := nonce) hb h0 h1 (by omega) hn
  have run : ∀ s' c, updateNonce inPlace s i nonce (some t) = .ok (s', c) → ∃ s2, setTarget inPlace s2 i t = .ok (s', c) ∧ Behind s2 ∧ s2.base = s.base ∧
      s2.used = s.used + (nonce.length + 1) ∧ s2.used ≤ s2.cap := by
    intro s' c h
    unfold updateNonce at h
    obtain ⟨r, e1, h⟩ := bind_inv h
    cases r with
    | none => exact absurd e1 r1
    | some q =>
      obtain ⟨p, s1⟩ := q
      simp only at h
      obtain ⟨s2, e2, h⟩ := bind_inv h
      obtain ⟨b1, b2, b3⟩ := r2 p s1 e1
      obtain ⟨g1, -, g3⟩ := strdup_size e1
      obtain ⟨k1, k2, k3⟩ := setValue_size e2
      obtain ⟨c1, c2⟩ := setValue_room b1 e2
      have hc : (s2.tags.getD i (0, 0)).2 = (s.tags.map Prod.snd).getD i 0 := by
        rw [k3, ← g3]
        simp only [List.getD_eq_getElem?_getD, List.getElem?_map]
        cases s1.tags[i]? <;> rfl
      rw [if_neg (by omega)] at h
      exact ⟨s2, h, c1, by rw [c2, b2], by omega, by omega⟩
  constructor
  · intro s' x h
    obtain ⟨s2, h, b1, b2, b3, b4⟩ := run s' _ h
    exact (setTarget_room b1 (by omega) (by omega) (by omega) b4).1 _ _ h
  · intro s' h
    obtain ⟨s2, h, b1, b2, b3, b4⟩ := run s' _ h
    obtain ⟨d1, d2⟩ := (setTarget_room b1 (by omega) (by omega) (by omega) b4).2 _ h
    exact ⟨d1, by rw [d2, b2]⟩

/-- An event with a nonce tag for difficulty 8 (see `s0`, `desk` in `Cases.lean`), as `nostr_nip13_mine_event` starts with. -/
def m0 : St := after (addTag none noMemory true s0 108 3) s0

/-- The same event; the caller has given back all other memory. -/
def m1 : St := { m0 with mem := fun x => if m0.base ≤ x ∧ x < m0.base + m0.cap then m0.mem x else none }

theorem histm : Hist none m1 [[c!"nonce", c!"0", c!"8"]] := by
  have hg : Given s0 108 [c!"nonce", c!"0", c!"8"] := given_of_check [1300, 1310, 1320] (by decide) rfl (by decide +kernel)
  have e : look (addTag none noMemory true s0 108 3) = some (none, [(4096, 3)]) := by decide +kernel
  have h := Hist.add (tagsMem := true) hist0 noMemory_valid hg (look_ok s0 e)
  rw [if_pos rfl] at h
  exact Hist.caller h fun x h1 h2 => by rw [if_pos ⟨h1, h2⟩]

theorem m1_size : m1.base = 4096 ∧ m1.cap = 1024 ∧ m1.used ≤ 1024 := by decide +kernel

/-- Mining goes on for as many attempts as one likes. -/
theorem run (k : Nat) (hk : k ≤ 2 ^ 50) : ∃ s w, Tries none inPlace true 108 8 k m1 s ∧ Has s [] w [c!"8"] [] ∧ Behind s ∧ s.base = 4096 ∧
    s.used ≤ 1024 + 32 * k ∧ (0 < k → w = Num.decNat (k - 1)) := by
  induction k with
  | zero =>
    refine ⟨m1, c!"0", .start, hist_inv histm, fun x hx => ?_, m1_size.1, by have := m1_size.2.2; omega, by simp⟩
    show (if m0.base ≤ x ∧ x < m0.base + m0.cap then m0.mem x else none) = none
    rw [if_neg (by have : m0.base + m0.cap ≤ x := hx; omega)]
  | succ k ih =>
    obtain ⟨s, w, t, ⟨os, i, tx⟩, b, hb, hu, -⟩ := ih (by omega)
    obtain ⟨e1, e2, e3⟩ := try_ok (cfg := none) (pre := []) (v1 := w) (rest := [c!"8"]) (post := []) ⟨os, i, tx⟩ (by simp) inPlace_valid true 108 (n := k) (target := 8)
      (by omega) (by decide) (by decide)
    have d2 := Num.decNat_length (n := k) (k := 20) (by omega) (by omega)
    have d3 := target_length (target := 8) (by decide) (by decide)
    obtain ⟨r1, r2⟩ := updateNonce_room (i := 0) (nonce := Num.decNat k) (t := Num.decInt 8) b (by omega) (by omega) (by omega) i.used
      (by have := e2; simp only [List.length_nil, List.length_cons] at this; omega)
    rcases e3 with ⟨s', h1, h2⟩ | ⟨s', h1⟩
    · obtain ⟨q1, q2⟩ := r2 s' h1
      obtain ⟨u1, -⟩ := updateNonce_size h1
      rw [e2] at u1
      rw [if_neg (by simp)] at u1
      exact ⟨s', _, .next t (by rw [e1]; exact h1), h2, q1, by rw [q2, hb], by omega, fun _ => rfl⟩
    · exact absurd h1 (r1 s' _)

/-- **C180 fails.** However much memory is considered enough (up to 2⁵⁰ bytes), an event with a single small tag takes more after so many
attempts; the tag is still the only one and still small. -/
theorem C180_refuted (B : Nat) (hB : B < 2 ^ 50) : ∃ s s', Hist none s [[c!"nonce", c!"0", c!"8"]] ∧ s.cap = 1024 ∧ inPlace.Valid ∧
    Tries none inPlace true 108 8 (B + 1) s s' ∧ readTags s'.mem s'.tags = .ok [[c!"nonce", Num.decNat B, c!"8"]] ∧ B < s'.cap := by
  obtain ⟨s, w, t, ⟨os, i, tx⟩, -, -, -, hw⟩ := run (B + 1) (by omega)
  refine ⟨m1, s, histm, m1_size.2.1, inPlace_valid, t, ?_, ?_⟩
  · rw [i.read tx, hw (by omega)]
    rfl
  · have := (C180_attempts_partial (pre := []) (post := []) (v1 := c!"0") (rest := [c!"8"]) histm (by simp) inPlace_valid true 108 (by omega) (by decide) (by decide) t)
    omega

/-- The hypotheses of the theorems above can be met. -/
example : ∃ s' : St, m1.used + 28 ≤ s'.used := by
  obtain ⟨s', w, t, -⟩ := run 7 (by decide)
  exact ⟨s', (C180_attempts_partial (pre := []) (post := []) (v1 := c!"0") (rest := [c!"8"]) histm (by simp) inPlace_valid true 108 (by decide) (by decide) (by decide) t).1⟩

end Nostr.Arena.Props
