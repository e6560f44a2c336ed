import Verif.Arena.Growth

/-! # Property theorems: how long a text taken from an event can be used (C211)

The accessors of an event (relay_protocol.c:191-207 `nostr_event_get_tag_value`, 212-243 `nostr_event_get_tag_values`, 245-254
`nostr_event_get_tag_at`) and the public structure itself hand out addresses inside the memory of the tags; they copy nothing.
(relay_protocol.c:779-784 `nostr_event_get_tag` hands out an address inside the array `event->tags`, which is a block of its own and not in this model.)
-/

namespace Nostr.Arena.Props
open Nostr Nostr.Arena

/-! ## Specification -/

/-- The address `p` is what a reader of the event `s` gets for value `j` of tag `k`, with `a` the address of the array of this tag. -/
def HandedOut (s : St) (k j a p : Nat) : Prop :=
  ∃ n, s.tags[k]? = some (a, n) ∧ j < n ∧ readPtr s.mem (a + 8 * j) = .ok p

/-- From `s` to `s'`, its owner does what they like with the memory outside the event and calls `nostr_event_add_tag`, with the values `vss`
one after the other; the calls may succeed or fail. -/
inductive Later (cfg : Option Config.Config) (s : St) : List (List Bytes) → St → Prop
  | start : Later cfg s [] s
  | caller {vss : List (List Bytes)} {s1 : St} {m : Mem} : Later cfg s vss s1 → (∀ x, s1.base ≤ x → x < s1.base + s1.cap → m x = s1.mem x) →
      Later cfg s vss { s1 with mem := m }
  | add {vss : List (List Bytes)} {s1 s2 : St} {A : Alloc} {tagsMem : Bool} {values : Nat} {vs : List Bytes} {code : Option Err} :
      Later cfg s vss s1 → A.Valid → Given s1 values vs → addTag cfg A tagsMem s1 values vs.length = .ok (s2, code) → Later cfg s (vss ++ [vs]) s2

/-! ## What an addition leaves as it is -/

theorem writePtr_frame {m m' : Mem} {a p : Nat} (h : writePtr m a p = .ok m') (x : Nat) (hx : x < a) : m' x = m x := by
  unfold writePtr at h
  split at h
  · simp only [Res.ok.injEq] at h
    subst h
    show (if _ then _ else _) = _
    rw [if_neg (by omega)]
  · simp at h

theorem memcpy_frame {m m' : Mem} {d s n : Nat} (h : memcpy m d s n = .ok m') (x : Nat) (hx : x < d) : m' x = m x := by
  unfold memcpy at h
  split at h
  · simp only [Res.ok.injEq] at h
    subst h
    show (if _ then _ else _) = _
    rw [if_neg (by omega)]
  · simp at h

theorem memcpy_none {m m' : Mem} {d s n : Nat} (h : memcpy m d s n = .ok m') (x : Nat) (hx : m x = none) : m' x = none := by
  unfold memcpy at h
  split at h
  · rename_i hc
    simp only [Res.ok.injEq] at h
    subst h
    show (if _ then _ else _) = _
    split
    · rename_i hr
      simp only [Bool.and_eq_true] at hc
      exact absurd hx (mapped_iff.1 hc.1.1 x hr.1 hr.2)
    · exact hx
  · simp at h

theorem copyStrings_frame : ∀ {n : Nat} {m m' : Mem} {a v st : Nat}, copyStrings m a v st n = .ok m' → v + 8 * n ≤ st →
    ∀ x, (x < v → m' x = m x) ∧ (m x = none → m' x = none) := by
  intro n
  induction n with
  | zero =>
      intro m m' a v st h _ x
      simp only [copyStrings, Res.ok.injEq] at h
      subst h
      exact ⟨fun _ => rfl, id⟩
  | succ n ih =>
      intro m m' a v st h hv x
      unfold copyStrings at h
      obtain ⟨p, _, h⟩ := Res.bind_eq_ok.1 h
      obtain ⟨len, _, h⟩ := Res.bind_eq_ok.1 h
      obtain ⟨m1, h1, h⟩ := Res.bind_eq_ok.1 h
      obtain ⟨m2, h2, h⟩ := Res.bind_eq_ok.1 h
      obtain ⟨f, g⟩ := ih h (by omega) x
      exact ⟨fun hx => by rw [f (by omega), writePtr_frame h2 x hx, memcpy_frame h1 x (by omega)],
        fun hx => g (writePtr_none h2 x (memcpy_none h1 x hx))⟩

theorem append_frame {tagsMem : Bool} {s s' : St} {values count strings : Nat} {code : Option Err}
    (h : append tagsMem s values count strings = .ok (s', code)) :
    s'.base = s.base ∧ s'.cap = s.cap ∧ s.used ≤ s'.used ∧ s'.used ≤ s.used + (8 * count + strings) ∧ s.tags <+: s'.tags ∧
      (∀ x, x < s.base + s.used → s'.mem x = s.mem x) ∧ ∀ x, s.mem x = none → s'.mem x = none := by
  have same : s.base = s.base ∧ s.cap = s.cap ∧ s.used ≤ s.used ∧ s.used ≤ s.used + (8 * count + strings) ∧ s.tags <+: s.tags ∧
      (∀ x, x < s.base + s.used → s.mem x = s.mem x) ∧ ∀ x, s.mem x = none → s.mem x = none :=
    ⟨rfl, rfl, Nat.le_refl _, Nat.le_add_right _ _, List.prefix_refl _, fun _ _ => rfl, fun _ => id⟩
  unfold append at h
  by_cases ht : tagsMem = false
  · rw [if_pos ht] at h
    simp only [Res.ok.injEq, Prod.mk.injEq] at h
    rw [← h.1]; exact same
  · rw [if_neg ht] at h
    unfold alloc at h
    by_cases h1 : s.used > s.cap ∨ 8 * count > s.cap - s.used
    · rw [if_pos h1] at h
      simp only [Res.ok.injEq, Prod.mk.injEq] at h
      rw [← h.1]; exact same
    · rw [if_neg h1] at h
      simp only [] at h
      by_cases h2 : s.used + 8 * count > s.cap ∨ strings > s.cap - (s.used + 8 * count)
      · rw [if_pos h2] at h
        simp only [Res.ok.injEq, Prod.mk.injEq] at h
        rw [← h.1]
        exact ⟨rfl, rfl, by simp only; omega, by simp only; omega, List.prefix_refl _, fun _ _ => rfl, fun _ => id⟩
      · rw [if_neg h2] at h
        simp only [] at h
        obtain ⟨m, hm, h⟩ := Res.bind_eq_ok.1 h
        simp only [Res.ok.injEq, Prod.mk.injEq] at h
        rw [← h.1]
        exact ⟨rfl, rfl, by simp only; omega, by simp only; omega, List.prefix_append _ _, fun x hx => (copyStrings_frame hm (by omega) x).1 hx,
          fun x hx => (copyStrings_frame hm (by omega) x).2 hx⟩

theorem movePtrs_none {ob nb : Nat} : ∀ {n : Nat} {m m' : Mem} {a : Nat}, movePtrs ob nb m a n = .ok m' → ∀ x, m x = none → m' x = none := by
  intro n
  induction n with
  | zero =>
      intro m m' a h x hx
      simp only [movePtrs, Res.ok.injEq] at h
      subst h; exact hx
  | succ n ih =>
      intro m m' a h x hx
      unfold movePtrs at h
      obtain ⟨p, _, h⟩ := Res.bind_eq_ok.1 h
      by_cases hp : p = 0
      · rw [if_pos hp] at h
        exact ih h x hx
      · rw [if_neg hp] at h
        obtain ⟨m1, h1, h⟩ := Res.bind_eq_ok.1 h
        exact ih h x (writePtr_none h1 x hx)

theorem moveTags_none {ob nb : Nat} : ∀ {ts : List (Nat × Nat)} {m : Mem} {r : Mem × List (Nat × Nat)}, moveTags ob nb m ts = .ok r →
    ∀ x, m x = none → r.1 x = none := by
  intro ts
  induction ts with
  | nil =>
      intro m r h x hx
      simp only [moveTags, Res.ok.injEq] at h
      subst h; exact hx
  | cons t ts ih =>
      intro m r h x hx
      unfold moveTags at h
      obtain ⟨m1, h1, h⟩ := Res.bind_eq_ok.1 h
      obtain ⟨r1, h2, h⟩ := Res.bind_eq_ok.1 h
      simp only [Res.ok.injEq] at h
      rw [← h]
      exact ih h2 x (movePtrs_none h1 x hx)

/-- The three outcomes of an addition: the block stays where it is (with what it contains), or it moves. -/
theorem addTag_frame {cfg : Option Config.Config} {A : Alloc} {tagsMem : Bool} {s s' : St} {values count : Nat} {code : Option Err}
    (hu : s.used ≤ s.cap) (h : addTag cfg A tagsMem s values count = .ok (s', code)) :
    (s'.base = s.base ∧ s.cap ≤ s'.cap ∧ s.used ≤ s'.used ∧ s.tags <+: s'.tags ∧ ∀ x, s.base ≤ x → x < s.base + s.used → s'.mem x = s.mem x) ∨
    (s'.base ≠ s.base ∧ ∀ x, s.base ≤ x → x < s.base + s.cap → ¬ (s'.base ≤ x ∧ x < s'.base + s'.cap) → s'.mem x = none) := by
  have same : ∀ c, (Res.ok (s, c) : Res (St × Option Err)) = .ok (s', code) →
      (s'.base = s.base ∧ s.cap ≤ s'.cap ∧ s.used ≤ s'.used ∧ s.tags <+: s'.tags ∧ ∀ x, s.base ≤ x → x < s.base + s.used → s'.mem x = s.mem x) ∨
      (s'.base ≠ s.base ∧ ∀ x, s.base ≤ x → x < s.base + s.cap → ¬ (s'.base ≤ x ∧ x < s'.base + s'.cap) → s'.mem x = none) := by
    intro c e
    simp only [Res.ok.injEq, Prod.mk.injEq] at e
    rw [← e.1]
    exact .inl ⟨rfl, Nat.le_refl _, Nat.le_refl _, List.prefix_refl _, fun _ _ _ => rfl⟩
  unfold addTag at h
  by_cases h0 : values = 0 ∨ count = 0
  · rw [if_pos h0] at h; exact same _ h
  rw [if_neg h0] at h
  by_cases h1 : cfg.any (fun c => decide (s.tags.length ≥ c.maxTags)) = true
  · rw [if_pos h1] at h; exact same _ h
  rw [if_neg h1] at h
  by_cases h2 : count > sizeMax / 8
  · rw [if_pos h2] at h; exact same _ h
  rw [if_neg h2] at h
  cases hs : stringsSize s.mem values count 0 with
  | ub => rw [hs] at h; simp at h
  | err e => rw [hs] at h; exact same _ h
  | ok strings =>
      rw [hs] at h
      simp only [] at h
      by_cases h3 : 8 * count > sizeMax - strings
      · rw [if_pos h3] at h; exact same _ h
      rw [if_neg h3] at h
      unfold place at h
      by_cases h4 : (s.used + (8 * count + strings)) % 2 ^ 64 > s.cap
      · rw [if_pos h4] at h
        cases hd : doubling 65 s.cap ((s.used + (8 * count + strings)) % 2 ^ 64) with
        | none => rw [hd] at h; exact same _ h
        | some newCap =>
            rw [hd] at h
            simp only [] at h
            have hge := (doubling_ge hd).1
            obtain ⟨r, hr, h⟩ := Res.bind_eq_ok.1 h
            cases r with
            | none => exact same _ h
            | some s1 =>
                simp only [] at h
                obtain ⟨b1, c1, u1, _, t1, f1, n1⟩ := append_frame h
                unfold grow at hr
                cases hA : A s newCap with
                | none => rw [hA] at hr; simp at hr
                | some nb =>
                    rw [hA] at hr
                    simp only [] at hr
                    by_cases hb : nb = s.base
                    · rw [if_pos hb] at hr
                      simp only [Res.ok.injEq, Option.some.injEq] at hr
                      subst hr
                      refine .inl ⟨b1, by rw [c1]; exact hge, u1, t1, fun x hx1 hx2 => ?_⟩
                      rw [f1 x hx2]
                      show realloc s.mem s.base s.cap nb newCap x = _
                      unfold realloc
                      rw [if_pos (by omega), if_pos (by omega), hb]
                      congr 1
                      omega
                    · rw [if_neg hb] at hr
                      obtain ⟨r1, hr1, hr⟩ := Res.bind_eq_ok.1 hr
                      simp only [Res.ok.injEq, Option.some.injEq] at hr
                      subst hr
                      refine .inr ⟨by rw [b1]; exact hb, fun x hx1 hx2 hx3 => n1 x (moveTags_none hr1 x ?_)⟩
                      rw [b1, c1] at hx3
                      unfold realloc
                      rw [if_neg hx3, if_pos ⟨hx1, hx2⟩]
      · rw [if_neg h4] at h
        obtain ⟨b1, c1, u1, _, t1, f1, _⟩ := append_frame h
        exact .inl ⟨b1, by omega, u1, t1, fun x _ hx => f1 x hx⟩

/-- An addition for which there is room does not move the block, and takes no more than its storage. -/
theorem addTag_room {cfg : Option Config.Config} {A : Alloc} {tagsMem : Bool} {s s' : St} {values : Nat} {vs : List Bytes} {code : Option Err}
    (hsm : s.cap < 2 ^ 63) (hg : Given s values vs) (hr : s.used + storage vs ≤ s.cap)
    (h : addTag cfg A tagsMem s values vs.length = .ok (s', code)) : s'.base = s.base ∧ s'.cap = s.cap ∧ s'.used ≤ s.used + storage vs := by
  have same : ∀ c, (Res.ok (s, c) : Res (St × Option Err)) = .ok (s', code) → s'.base = s.base ∧ s'.cap = s.cap ∧ s'.used ≤ s.used + storage vs := by
    intro c e
    simp only [Res.ok.injEq, Prod.mk.injEq] at e
    rw [← e.1]
    exact ⟨rfl, rfl, Nat.le_add_right _ _⟩
  unfold addTag at h
  by_cases h0 : values = 0 ∨ vs.length = 0
  · rw [if_pos h0] at h; exact same _ h
  rw [if_neg h0] at h
  by_cases h1 : cfg.any (fun c => decide (s.tags.length ≥ c.maxTags)) = true
  · rw [if_pos h1] at h; exact same _ h
  rw [if_neg h1] at h
  by_cases h2 : vs.length > sizeMax / 8
  · rw [if_pos h2] at h; exact same _ h
  rw [if_neg h2] at h
  obtain ⟨_, ps, hl, hsrc⟩ := hg
  have hz := stringsSize_ok hsrc 0
  have hzl : (ps.zip vs).length = vs.length := by simp [hl]
  rw [hzl, room_zip hl] at hz
  rcases hz with hz | hz
  · rw [hz] at h
    simp only [Nat.zero_add] at h
    have hst : 8 * vs.length + (vs.map fun v => v.length + 1).sum = storage vs := rfl
    by_cases h3 : 8 * vs.length > sizeMax - (vs.map fun v => v.length + 1).sum
    · rw [if_pos h3] at h; exact same _ h
    rw [if_neg h3] at h
    unfold place at h
    rw [hst] at h
    rw [if_neg (by omega)] at h
    obtain ⟨b1, c1, _, u1, _⟩ := append_frame h
    exact ⟨b1, c1, by rw [hst] at u1; exact u1⟩
  · rw [hz.1] at h; exact same _ h

/-! ## What is handed out -/

theorem PtrsAt.get {m : Mem} : ∀ {ps : List Nat} {a j : Nat} (hj : j < ps.length), PtrsAt m a ps → PtrAt m (a + 8 * j) ps[j] := by
  intro ps
  induction ps with
  | nil => intro a j hj; simp at hj
  | cons p ps ih =>
      intro a j hj h
      cases j with
      | zero => exact h.1
      | succ j =>
          have := ih (a := a + 8) (j := j) (by simpa using hj) h.2
          rw [show a + 8 * (j + 1) = a + 8 + 8 * j by omega]
          exact this

/-- Where the address that is handed out comes from. -/
theorem handed {cfg : Option Config.Config} {s : St} {ts : List (List Bytes)} (h : Hist cfg s ts) {k j a p : Nat} (ho : HandedOut s k j a p) :
    ∃ t v, ts[k]? = some t ∧ t[j]? = some v ∧ StrAt s.mem p v ∧ s.base ≤ p ∧ p + (v.length + 1) ≤ s.base + s.used ∧
      PtrAt s.mem (a + 8 * j) p ∧ s.base ≤ a ∧ a + 8 * j + 8 ≤ s.base + s.used ∧ s.used ≤ s.cap ∧ s.cap < 2 ^ 63 ∧ s.base + s.cap ≤ 2 ^ 64 ∧ 0 < s.base := by
  obtain ⟨os, i, tx⟩ := hist_inv h
  obtain ⟨n, ht, hj, hp⟩ := ho
  rw [i.tags, List.getElem?_map] at ht
  obtain ⟨o, hok, hot⟩ := Option.map_eq_some_iff.1 ht
  have hmem : o ∈ os := List.mem_of_getElem? hok
  simp only [Obj.tag, Prod.mk.injEq] at hot
  obtain ⟨rfl, rfl⟩ := hot
  have hrow := congrArg (fun l => l[k]?) tx
  simp only [texts, List.getElem?_map, hok, Option.map_some] at hrow
  obtain ⟨t, htk, hrow⟩ := Option.map_eq_some_iff.1 hrow.symm
  have hlen : t.length = o.vals.length := by simpa using congrArg List.length hrow
  have hjt : j < t.length := by omega
  have hcell := congrArg (fun l => l[j]?) hrow
  simp only [List.getElem?_map, List.getElem?_eq_getElem hjt, List.getElem?_eq_getElem hj, Option.map_some, Option.some.injEq] at hcell
  have hpa := PtrsAt.get (by simpa using hj) (i.arrays o hmem)
  have hpe := readPtr_iff.2 hpa
  rw [hp] at hpe
  simp only [Res.ok.injEq] at hpe
  have hpj : o.ptrs[j]'(by simpa using hj) = o.vals[j].1 := by simp [Obj.ptrs]
  have hlive : Live os p t[j] := ⟨o, hmem, by
    rw [hpe, hpj, hcell]
    exact List.getElem_mem hj⟩
  have h1 := i.texts _ _ hlive
  have h2 := i.inText _ _ hlive
  have h3 := i.inArray o hmem
  exact ⟨t, t[j], htk, List.getElem?_eq_getElem hjt, h1.2, h2.1, h2.2, readPtr_iff.1 hp, h3.1, by omega, i.used, i.small, i.top, i.base⟩

/-- While there is room, the block stays where it is, with what it contains. -/
theorem later_room {cfg : Option Config.Config} {s s' : St} {vss : List (List Bytes)} (hu : s.used ≤ s.cap) (hsm : s.cap < 2 ^ 63)
    (hl : Later cfg s vss s') : s.used + (vss.map storage).sum ≤ s.cap →
      s'.base = s.base ∧ s'.cap = s.cap ∧ s.used ≤ s'.used ∧ s'.used ≤ s.used + (vss.map storage).sum ∧ s.tags <+: s'.tags ∧
      ∀ x, s.base ≤ x → x < s.base + s.used → s'.mem x = s.mem x := by
  induction hl with
  | start => intro _; exact ⟨rfl, rfl, Nat.le_refl _, Nat.le_add_right _ _, List.prefix_refl _, fun _ _ _ => rfl⟩
  | @caller vss s1 m _ hm ih =>
      intro hr
      obtain ⟨a1, a2, a3, a4, a5, a6⟩ := ih hr
      exact ⟨a1, a2, a3, a4, a5, fun x hx1 hx2 => (hm x (by omega) (by omega)).trans (a6 x hx1 hx2)⟩
  | add _ _ hg e ih =>
      intro hr
      simp only [List.map_append, List.map_cons, List.map_nil, List.sum_append, List.sum_cons, List.sum_nil] at hr ⊢
      obtain ⟨a1, a2, a3, a4, a5, a6⟩ := ih (by omega)
      obtain ⟨b1, b2, b3⟩ := addTag_room (by omega) hg (by omega) e
      rcases addTag_frame (by omega) e with ⟨_, _, c3, c4, c5⟩ | ⟨c1, _⟩
      · exact ⟨by rw [b1, a1], by rw [b2, a2], by omega, by omega, a5.trans c4, fun x hx1 hx2 => by
          rw [c5 x (by omega) (by omega), a6 x hx1 hx2]⟩
      · exact absurd b1 c1

theorem Later.hist {cfg : Option Config.Config} {s s' : St} {ts vss : List (List Bytes)} (h : Hist cfg s ts) (hl : Later cfg s vss s') :
    ∃ ts', Hist cfg s' ts' := by
  induction hl with
  | start => exact ⟨ts, h⟩
  | caller _ hm ih => obtain ⟨ts', h'⟩ := ih; exact ⟨ts', .caller h' hm⟩
  | add _ hA hg e ih => obtain ⟨ts', h'⟩ := ih; exact ⟨_, .add h' hA hg e⟩

/-! ## C211 -/

/-- C211, the part which is true: what an event has handed out can be used as long as the tags added since then fit into the memory it has, whatever
else happens: the array of the tag is where it was, the address in it is the same, and the text there is the text of the tag. -/
theorem C211_partial {cfg : Option Config.Config} {s s' : St} {ts vss : List (List Bytes)} (h : Hist cfg s ts) (hl : Later cfg s vss s')
    (hr : s.used + (vss.map storage).sum ≤ s.cap) {k j a p : Nat} (ho : HandedOut s k j a p) :
    HandedOut s' k j a p ∧ ∃ t v, ts[k]? = some t ∧ t[j]? = some v ∧ readStr s'.mem (2 ^ 64) p = .ok v := by
  obtain ⟨t, v, h1, h2, h3, h4, h5, h6, h7, h8, h9, h10, h11, h12⟩ := handed h ho
  obtain ⟨_, _, _, _, a5, a6⟩ := later_room h9 h10 hl hr
  obtain ⟨n, ht, hj, _⟩ := ho
  refine ⟨⟨n, ?_, hj, readPtr_iff.2 (h6.frame (fun x hx1 hx2 => a6 x (by omega) (by omega)))⟩, t, v, h1, h2,
    readStr_ok (h3.frame (fun x hx1 hx2 => a6 x (by omega) (by omega))) (by omega)⟩
  obtain ⟨l, hl2⟩ := a5
  rw [← hl2, List.getElem?_append_left]
  · exact ht
  · exact (List.getElem?_eq_some_iff.1 ht).1

/-- For a new event: whatever is handed out at any time can be used as long as all the tags given to the event so far take no more than 1024 bytes. -/
theorem C211_small {cfg : Option Config.Config} {m : Mem} {base : Nat} (h0 : 0 < base) (h1 : base + 1024 ≤ 2 ^ 64)
    (h2 : ∀ x, base ≤ x → x < base + 1024 → m x = none) {s s' : St} {vss vss' : List (List Bytes)} (hl : Later cfg (create m base) vss s)
    (hl' : Later cfg s vss' s') (hr : ((vss ++ vss').map storage).sum ≤ 1024) {k j a p : Nat} (ho : HandedOut s k j a p) :
    HandedOut s' k j a p ∧ ∃ v, readStr s.mem (2 ^ 64) p = .ok v ∧ readStr s'.mem (2 ^ 64) p = .ok v := by
  have hc : Hist cfg (create m base) [] := .create h0 h1 h2
  obtain ⟨ts, h⟩ := hl.hist hc
  simp only [List.map_append, List.sum_append] at hr
  have hz : (create m base).used = 0 ∧ (create m base).cap = 1024 := ⟨rfl, rfl⟩
  obtain ⟨_, a2, _, a4, _⟩ := later_room (by omega) (by omega) hl (by omega)
  obtain ⟨b1, t, v, b2, b3, b4⟩ := C211_partial h hl' (by omega) ho
  obtain ⟨_, t', v', c2, c3, c4⟩ := C211_partial h (.start (cfg := cfg) (s := s)) (by simp; omega) ho
  rw [b2] at c2
  simp only [Option.some.injEq] at c2
  subst c2
  rw [b3] at c3
  simp only [Option.some.injEq] at c3
  subst c3
  exact ⟨b1, v, c4, b4⟩

/-- ... and also over an addition that has to enlarge the memory, if the allocator can do so without moving it. -/
theorem C211_inplace {cfg : Option Config.Config} {s s' : St} {ts : List (List Bytes)} (h : Hist cfg s ts) {A : Alloc} {tagsMem : Bool}
    {values count : Nat} {code : Option Err} (e : addTag cfg A tagsMem s values count = .ok (s', code)) (hb : s'.base = s.base)
    {k j a p : Nat} (ho : HandedOut s k j a p) :
    HandedOut s' k j a p ∧ ∃ t v, ts[k]? = some t ∧ t[j]? = some v ∧ readStr s'.mem (2 ^ 64) p = .ok v := by
  obtain ⟨t, v, h1, h2, h3, h4, h5, h6, h7, h8, h9, h10, h11, h12⟩ := handed h ho
  rcases addTag_frame h9 e with ⟨_, _, _, a5, a6⟩ | ⟨c1, _⟩
  · obtain ⟨n, ht, hj, _⟩ := ho
    refine ⟨⟨n, ?_, hj, readPtr_iff.2 (h6.frame (fun x hx1 hx2 => a6 x (by omega) (by omega)))⟩, t, v, h1, h2,
      readStr_ok (h3.frame (fun x hx1 hx2 => a6 x (by omega) (by omega))) (by omega)⟩
    obtain ⟨l, hl2⟩ := a5
    rw [← hl2, List.getElem?_append_left]
    · exact ht
    · exact (List.getElem?_eq_some_iff.1 ht).1
  · exact absurd hb c1

/-- The converse: an addition that moves the memory to a place apart from the old one makes every address handed out before useless, also if
the addition then fails. -/
theorem C211_moved {cfg : Option Config.Config} {s s' : St} {ts : List (List Bytes)} (h : Hist cfg s ts) {A : Alloc} {tagsMem : Bool}
    {values count : Nat} {code : Option Err} (e : addTag cfg A tagsMem s values count = .ok (s', code))
    (hb : s'.base + s'.cap ≤ s.base ∨ s.base + s.cap ≤ s'.base) {k j a p : Nat} (ho : HandedOut s k j a p) (n : Nat) :
    readStr s'.mem n p = .ub ∧ readPtr s'.mem (a + 8 * j) = .ub := by
  obtain ⟨t, v, h1, h2, h3, h4, h5, h6, h7, h8, h9, h10, h11, h12⟩ := handed h ho
  rcases addTag_frame h9 e with ⟨a1, a2, _⟩ | ⟨_, c2⟩
  · omega
  · have z1 := c2 p h4 (by omega) (by omega)
    have z2 := c2 (a + 8 * j) (by omega) (by omega) (by omega)
    refine ⟨?_, by unfold readPtr; rw [z2]⟩
    cases n with
    | zero => rfl
    | succ n => unfold readStr; rw [z1]

/-! ### Cases -/

/-- The address of the long text. -/
theorem handed1 : HandedOut s1 0 0 4096 4104 := by
  refine ⟨1, ?_, by decide, by decide +kernel⟩
  have e1 : s1.tags = [(4096, 1)] := by decide +kernel
  rw [e1]; rfl

/-- The hypotheses of `C211_partial` can be met: the tag `["p"]` is added to the event with the long text. -/
theorem short1 : look (addTag none mover true s1 132 1) = some (none, [(4096, 1), (5069, 1)]) := by decide +kernel

example : ∃ s', Later none s1 [[c!"p"]] s' ∧ HandedOut s' 0 0 4096 4104 ∧ readStr s'.mem (2 ^ 64) 4104 = .ok long := by
  have hg : Given s1 132 [c!"p"] := given_of_check [1330] (by decide) rfl (by decide +kernel)
  have hl : Later none s1 ([] ++ [[c!"p"]]) (after (addTag none mover true s1 132 1) s1) := .add .start mover_valid hg (look_ok s1 short1)
  obtain ⟨a, t, v, h1, h2, h3⟩ := C211_partial hist1 hl (by decide +kernel) handed1
  simp only [List.getElem?_cons_zero, Option.some.injEq] at h1
  subst h1
  simp only [List.getElem?_cons_zero, Option.some.injEq] at h2
  subst h2
  exact ⟨_, hl, a, h3⟩

/-- The hypotheses of `C211_small` can be met: both additions together. -/
example : (([[long]] ++ [[c!"p"]]).map storage).sum ≤ 1024 ∧ Later none (create desk 4096) ([] ++ [[long]]) s1 := by
  have hg : Given s0 100 [long] := given_of_check [200] (by decide) rfl (by decide +kernel)
  have e : look (addTag none noMemory true s0 100 1) = some (none, [(4096, 1)]) := by decide +kernel
  exact ⟨by decide +kernel, .add .start noMemory_valid hg (look_ok s0 e)⟩

/-- An allocator that enlarges the block where it is, by at most 4096 bytes, if these are free. -/
def stayer : Alloc := fun s n =>
  if 0 < s.base ∧ s.base + n ≤ 2 ^ 62 ∧ n ≤ s.cap + 4096 ∧ unused s.mem (s.base + s.cap) (n - s.cap) = true then some s.base else none

theorem stayer_valid : stayer.Valid := by
  intro s n nb h
  unfold stayer at h
  split at h
  · rename_i hc
    simp only [Option.some.injEq] at h
    subst h
    refine ⟨hc.1, by omega, by omega, fun x h1 h2 => ?_⟩
    by_cases hx : x < s.base + s.cap
    · exact .inl ⟨h1, hx⟩
    · exact .inr (unused_iff hc.2.2.2 x (by omega) (by omega))
  · simp at h

/-- ... and those of `C211_inplace`: the long text a second time, where the memory behind the block is free. -/
example : readStr (after (addTag none stayer true s1 100 1) s1).mem (2 ^ 64) 4104 = .ok long ∧ s1.cap < (after (addTag none stayer true s1 100 1) s1).cap := by
  have e : look (addTag none stayer true s1 100 1) = some (none, [(4096, 1), (5069, 1)]) := by decide +kernel
  obtain ⟨_, t, v, h1, h2, h3⟩ := C211_inplace hist1 (look_ok s1 e) (by decide +kernel) handed1
  simp only [List.getElem?_cons_zero, Option.some.injEq] at h1
  subst h1
  simp only [List.getElem?_cons_zero, Option.some.injEq] at h2
  subst h2
  exact ⟨h3, by decide +kernel⟩

/-- C211 is false: an addition which succeeds can leave all that was handed out before behind in released memory. -/
theorem C211_refuted : ¬ ∀ (cfg : Option Config.Config) (s s' : St) (ts vss : List (List Bytes)), Hist cfg s ts → Later cfg s vss s' →
    ∀ k j a p, HandedOut s k j a p → readStr s'.mem (2 ^ 64) p ≠ .ub := by
  intro h
  have e := look_ok s1 moves
  have hl : Later none s1 ([] ++ [[long]]) (after (addTag none mover true s1 100 1) s1) := .add .start mover_valid given1 e
  have hb : (after (addTag none mover true s1 100 1) s1).base = 40960 := by decide +kernel
  have hc : s1.base = 4096 ∧ s1.cap = 1024 := by decide +kernel
  exact h none s1 _ _ _ hist1 hl 0 0 4096 4104 handed1 (C211_moved hist1 e (.inr (by omega)) handed1 _).1

end Nostr.Arena.Props
