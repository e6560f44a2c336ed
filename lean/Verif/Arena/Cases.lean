import Verif.Arena.Props

/-!
# C18, C82, C119: cases

Concrete events for the theorems of `Props.lean`, and the cases in which the properties fail.
-/

namespace Nostr.Arena.Props
open Nostr Nostr.Arena

/-! ## Tools for concrete memories -/

theorem strAt_of_read {m : Mem} {f a : Nat} {s : Bytes} (h : readStr m f a = .ok s) : StrAt m a s := by
  induction f generalizing a s with
  | zero => simp [readStr] at h
  | succ f ih =>
      unfold readStr at h
      split at h
      · rename_i b hb
        split at h
        · rename_i h0
          simp only [Res.ok.injEq] at h
          subst h
          show m a = _
          rw [hb, h0]
        · rename_i h0
          obtain ⟨s1, h1, h2⟩ := Res.bind_eq_ok.1 h
          simp only [Res.ok.injEq] at h2
          subst h2
          exact ⟨hb, h0, ih h1⟩
      · simp at h

/-- `Src` by computation. -/
def srcCheck (m : Mem) (lo hi : Nat) : Nat → List (Nat × Bytes) → Bool
  | _, [] => true
  | a, q :: qs => decide (readPtr m a = .ok q.1) && decide (q.1 ≠ 0) && decide (readStr m (2 ^ 64) q.1 = .ok q.2) &&
      decide (q.1 + q.2.length < 2 ^ 64) && decide (a + 8 ≤ lo ∨ hi ≤ a) &&
      decide (q.1 + (q.2.length + 1) ≤ lo ∨ hi ≤ q.1) && srcCheck m lo hi (a + 8) qs

theorem src_of_check {m : Mem} {lo hi a : Nat} {qs : List (Nat × Bytes)} (h : srcCheck m lo hi a qs = true) :
    Src m lo hi a qs := by
  induction qs generalizing a with
  | nil => trivial
  | cons q qs ih =>
      simp only [srcCheck, Bool.and_eq_true, decide_eq_true_eq] at h
      obtain ⟨⟨⟨⟨⟨⟨h1, h2⟩, h3⟩, h4⟩, h5⟩, h6⟩, h7⟩ := h
      exact ⟨⟨readPtr_iff.1 h1, h2, strAt_of_read h3, h4, h5, h6⟩, ih h7⟩

/-- What is seen of an outcome: the code, and where the tags are. -/
def look (r : Res (St × Option Err)) : Option (Option Err × List (Nat × Nat)) :=
  match r with
  | .ok (s, c) => some (c, s.tags)
  | _ => none

/-- The state after a call. -/
def after (r : Res (St × Option Err)) (s : St) : St :=
  match r with
  | .ok (s', _) => s'
  | _ => s

theorem look_ok {r : Res (St × Option Err)} {c : Option Err} {ts : List (Nat × Nat)} (s : St)
    (h : look r = some (c, ts)) : r = .ok (after r s, c) := by
  unfold look at h
  split at h
  · simp only [Option.some.injEq, Prod.mk.injEq] at h
    simp [after, h.1]
  · simp at h

/-- Whether `n` bytes from `a` on are unused. -/
def unused (m : Mem) : Nat → Nat → Bool
  | _, 0 => true
  | a, n + 1 => (m a).isNone && unused m (a + 1) n

theorem unused_iff {m : Mem} {a n : Nat} (h : unused m a n = true) (x : Nat) (h1 : a ≤ x) (h2 : x < a + n) :
    m x = none := by
  induction n generalizing a with
  | zero => omega
  | succ n ih =>
      simp only [unused, Bool.and_eq_true, Option.isNone_iff_eq_none] at h
      rcases Nat.lt_or_ge a x with h3 | h3
      · exact ih h.2 h3 (by omega)
      · have : x = a := by omega
        subst this
        exact h.1

/-- An allocator which always says that there is no memory. -/
def noMemory : Alloc := fun _ _ => none

theorem noMemory_valid : noMemory.Valid := fun _ _ _ h => by simp [noMemory] at h

/-- An allocator which moves the block to address 40960 if there is room. -/
def mover : Alloc := fun s n => if n ≤ 4096 ∧ unused s.mem 40960 n = true then some 40960 else none

theorem mover_valid : mover.Valid := by
  intro s n nb h
  unfold mover at h
  split at h
  · rename_i hc
    simp only [Option.some.injEq] at h
    subst h
    exact ⟨by omega, by omega, by omega, fun x h1 h2 => .inr (unused_iff hc.2 x h1 h2)⟩
  · simp at h

/-! ## A caller -/

/-- A caller's memory: at 200 a text of 964 letters, at 1300 `nonce`, at 1310 `0`, at 1320 `8`, at 1330 `p`; at 100
the address of the long text; at 108, 116 and 124 the addresses of `nonce`, `0` and `8`; at 132 that of `p`. -/
def desk : Mem := fun x =>
  if 100 ≤ x ∧ x < 108 then some (.frag 200 (x - 100))
  else if 108 ≤ x ∧ x < 116 then some (.frag 1300 (x - 108))
  else if 116 ≤ x ∧ x < 124 then some (.frag 1310 (x - 116))
  else if 124 ≤ x ∧ x < 132 then some (.frag 1320 (x - 124))
  else if 132 ≤ x ∧ x < 140 then some (.frag 1330 (x - 132))
  else if 200 ≤ x ∧ x < 1164 then some (.byte 97)
  else if x = 1164 then some (.byte 0)
  else if 1300 ≤ x ∧ x < 1306 then some (.byte ((c!"nonce" ++ [0]).getD (x - 1300) 0))
  else if x = 1310 then some (.byte 0x30)
  else if x = 1311 then some (.byte 0)
  else if x = 1320 then some (.byte 0x38)
  else if x = 1321 then some (.byte 0)
  else if x = 1330 then some (.byte 0x70)
  else if x = 1331 then some (.byte 0)
  else none

/-- 964 letters -/
def long : Bytes := List.replicate 964 97

/-- An event of this caller, at 4096. -/
def s0 : St := create desk 4096

theorem desk_free : unused desk 4096 1024 = true := by decide +kernel

theorem hist0 : Hist none s0 [] :=
  .create (by decide) (by decide) (fun x h1 h2 => unused_iff desk_free x h1 h2)

theorem given_of_check {s : St} {values : Nat} {vs : List Bytes} (ps : List Nat) (h0 : values ≠ 0)
    (hl : ps.length = vs.length) (h : srcCheck s.mem s.base (s.base + s.cap) values (ps.zip vs) = true) :
    Given s values vs := ⟨h0, ps, hl, src_of_check h⟩

/-- The long text is added as a tag of one value. -/
def s1 : St := after (addTag none noMemory true s0 100 1) s0

theorem hist1 : Hist none s1 [[long]] := by
  have hg : Given s0 100 [long] := given_of_check [200] (by decide) rfl (by decide +kernel)
  have e : look (addTag none noMemory true s0 100 1) = some (none, [(4096, 1)]) := by decide +kernel
  have h := Hist.add (tagsMem := true) hist0 noMemory_valid hg (look_ok s0 e)
  rw [if_pos rfl] at h
  exact h

/-- The hypotheses of `C18_tags`, `C18_add`, `C18_succeeds` and `C18_refines` can be met with the block growing
and moving: the long text a second time. -/
theorem moves : look (addTag none mover true s1 100 1) = some (none, [(40960, 1), (41933, 1)]) := by
  decide +kernel

theorem given1 : Given s1 100 [long] := given_of_check [200] (by decide) rfl (by decide +kernel)

example : readTags (after (addTag none mover true s1 100 1) s1).mem (after (addTag none mover true s1 100 1) s1).tags =
    .ok [[long], [long]] :=
  C18_tags (cfg := none) (by simpa using Hist.add (tagsMem := true) hist1 mover_valid given1 (look_ok s1 moves))

/-- ... and with an error in between: there is no memory, and the first tag is still there. -/
example : look (addTag none noMemory true s1 100 1) = some (some .memory, [(4096, 1)]) := by decide +kernel

/-! ## C18: a tag of the same event -/

/-- C18 is false for arguments which belong to the event itself: adding a copy of an existing tag, with the values
taken from that tag, reads released memory when the block has to move. -/
theorem C18_own_refuted : ¬ ∀ (cfg : Option Config.Config) (s : St) (ts : List (List Bytes)), Hist cfg s ts →
    ∀ A : Alloc, A.Valid → ∀ t ∈ s.tags, addTag cfg A true s t.1 t.2 ≠ .ub := by
  intro h
  have e1 : s1.tags = [(4096, 1)] := by decide +kernel
  have e2 : look (addTag none mover true s1 4096 1) = none := by decide +kernel
  have h1 := h none s1 _ hist1 mover mover_valid (4096, 1) (by rw [e1]; simp)
  have h3 : ∀ e, addTag none mover true s1 4096 1 ≠ .err e := by
    intro e he
    have e4 : (match addTag none mover true s1 4096 1 with | .err _ => true | _ => false) = false := by decide +kernel
    rw [he] at e4
    simp at e4
  cases hr : addTag none mover true s1 4096 1 with
  | ok r =>
      rw [hr] at e2
      simp [look] at e2
  | err e => exact h3 e hr
  | ub => exact h1 hr

theorem src_of_vals {m : Mem} {lo hi a : Nat} {vs : List (Nat × Bytes)} (hp : PtrsAt m a (vs.map Prod.fst))
    (ha : a + 8 * vs.length ≤ lo)
    (hq : ∀ q ∈ vs, q.1 ≠ 0 ∧ StrAt m q.1 q.2 ∧ q.1 + q.2.length < 2 ^ 64 ∧ q.1 + (q.2.length + 1) ≤ lo) :
    Src m lo hi a vs := by
  induction vs generalizing a with
  | nil => trivial
  | cons q vs ih =>
      simp only [List.length_cons] at ha
      obtain ⟨h1, h2, h3, h4⟩ := hq q (by simp)
      exact ⟨⟨hp.1, h1, h2, h3, .inl (by omega), .inl h4⟩, ih hp.2 (by omega) (fun q' hq' => hq q' (by simp [hq']))⟩

/-- C18, the part which is true for them: while the block need not grow, a tag of the event can be added to
it again. -/
theorem C18_own_partial {cfg : Option Config.Config} {s : St} {ts : List (List Bytes)} (h : Hist cfg s ts) {k : Nat}
    (hk : k < ts.length) (hne : ts[k] ≠ []) (hcfg : ∀ c, cfg = some c → ts.length < c.maxTags)
    (hroom : s.used + storage ts[k] ≤ s.cap) (A : Alloc) :
    ∃ t s', s.tags[k]? = some t ∧ addTag cfg A true s t.1 t.2 = .ok (s', none) ∧
      readTags s'.mem s'.tags = .ok (ts ++ [ts[k]]) := by
  obtain ⟨os, i, t⟩ := hist_inv h
  have hlen : s.tags.length = ts.length := by
    have := congrArg List.length t
    simp only [texts, List.length_map] at this
    rw [i.tags]; simpa using this
  have hko : k < os.length := by
    have := congrArg List.length i.tags
    simp only [List.length_map] at this
    omega
  have hrow : os[k].vals.map Prod.snd = ts[k].map some := by
    have := congrArg (fun l => l[k]?) t
    simp only [texts, List.getElem?_map, List.getElem?_eq_getElem hko, List.getElem?_eq_getElem hk,
      Option.map_some, Option.some.injEq] at this
    exact this
  have hl : os[k].ptrs.length = ts[k].length := by simpa using congrArg List.length hrow
  have hv : os[k].vals = (os[k].ptrs.zip ts[k]).map fun q => (q.1, some q.2) := by
    apply List.ext_getElem
    · simp [hl, ← Obj.ptrs_length]
    · intro j h1 h2
      have hj : j < ts[k].length := by
        rw [← hl]; simpa using h1
      have hi := congrArg (fun l => l[j]?) hrow
      simp only [List.getElem?_map, List.getElem?_eq_getElem h1, List.getElem?_eq_getElem hj,
        Option.map_some, Option.some.injEq] at hi
      apply Prod.ext
      · simp [Obj.ptrs]
      · simp [hi]
  have hin := i.inArray os[k] (List.getElem_mem hko)
  have hused := i.used
  have htop := i.top
  have hbase := i.base
  have hsm := i.small
  have hzl : (os[k].ptrs.zip ts[k]).length = ts[k].length := by simp [hl]
  have hvl : os[k].vals.length = ts[k].length := by rw [← Obj.ptrs_length]; exact hl
  have hs : Src s.mem (s.base + s.used) (s.base + s.cap) os[k].addr (os[k].ptrs.zip ts[k]) := by
    refine src_of_vals (by rw [List.map_fst_zip (by omega)]; exact i.arrays _ (List.getElem_mem hko)) ?_ ?_
    · rw [hzl, ← hvl]; exact hin.2
    · intro q hq
      have hlive : Live os q.1 q.2 := ⟨os[k], List.getElem_mem hko, by
        rw [hv, List.mem_map]; exact ⟨q, hq, rfl⟩⟩
      have h1 := i.texts _ _ hlive
      have h2 := i.inText _ _ hlive
      exact ⟨h1.1, h1.2, by omega, h2.2⟩
  have hroom2 := room_zip hl
  have hst : storage ts[k] = 8 * ts[k].length + room (os[k].ptrs.zip ts[k]) := by rw [hroom2]; rfl
  have hpos : 0 < ts[k].length := List.length_pos_iff.2 hne
  have hsz : sizeMax = 2 ^ 64 - 1 := rfl
  refine ⟨os[k].tag, ?_⟩
  have ha := append_ok i hs true
  rw [hzl] at ha
  rcases ha with ⟨_, _, _, _, hbad⟩ | ⟨s', o, e, i', vv, _⟩
  · rcases hbad with hb | hb
    · exact absurd hb (by simp)
    · omega
  · refine ⟨s', by rw [i.tags]; simp [List.getElem?_eq_getElem hko], ?_, i'.read ?_⟩
    · show addTag cfg A true s os[k].addr os[k].vals.length = _
      rw [hvl]
      unfold addTag
      rw [if_neg (by omega), if_neg (by
        rw [hlen]
        cases hc : cfg with
        | none => simp
        | some c => have := hcfg c hc; simp; omega), if_neg (by omega)]
      have hss := stringsSize_ok hs 0
      rw [hzl] at hss
      rcases hss with e1 | ⟨_, hbad⟩
      · rw [e1]
        simp only [Nat.zero_add]
        rw [if_neg (by omega)]
        unfold place
        rw [← hst, Nat.mod_eq_of_lt (by omega), if_neg (by omega)]
        exact e
      · omega
    · have : texts (os ++ [o]) = texts os ++ [o.vals.map Prod.snd] := by simp [texts]
      rw [this, vv, zip_texts hl, t]
      simp

/-- The tag `p`. -/
def p1 : St := after (addTag none noMemory true s0 132 1) s0

theorem histp : Hist none p1 [[c!"p"]] := by
  have hg : Given s0 132 [c!"p"] := given_of_check [1330] (by decide) rfl (by decide +kernel)
  have e : look (addTag none noMemory true s0 132 1) = some (none, [(4096, 1)]) := by decide +kernel
  have h := Hist.add (tagsMem := true) hist0 noMemory_valid hg (look_ok s0 e)
  rw [if_pos rfl] at h
  exact h

/-- The hypotheses of `C18_own_partial` can be met. -/
example : ∃ t s', p1.tags[0]? = some t ∧ addTag none noMemory true p1 t.1 t.2 = .ok (s', none) ∧
    readTags s'.mem s'.tags = .ok [[c!"p"], [c!"p"]] :=
  C18_own_partial histp (k := 0) (by decide) (by decide) (by simp) (by decide +kernel) noMemory

/-! ## C18: alignment -/

/-- The arrays of pointers are placed right behind texts of any length: in a block aligned to 16 bytes the
second array is at an odd multiple of 2. The C standard makes every access to it undefined; the model, like
x86-64 and ARMv8, carries it out. -/
theorem C18_alignment_refuted : ¬ ∀ (cfg : Option Config.Config) (s : St) (ts : List (List Bytes)), Hist cfg s ts →
    s.base % 16 = 0 → ∀ t ∈ s.tags, t.1 % 8 = 0 := by
  intro h
  have hg : Given p1 132 [c!"p"] := given_of_check [1330] (by decide) rfl (by decide +kernel)
  have e : look (addTag none noMemory true p1 132 1) = some (none, [(4096, 1), (4106, 1)]) := by decide +kernel
  have hh := Hist.add (tagsMem := true) histp noMemory_valid hg (look_ok p1 e)
  have e2 : (after (addTag none noMemory true p1 132 1) p1).tags = [(4096, 1), (4106, 1)] := by decide +kernel
  have := h none _ _ hh (by decide +kernel) (4106, 1)
    (by show (4106, 1) ∈ (after (addTag none noMemory true p1 132 1) p1).tags; rw [e2]; simp)
  exact absurd this (by decide)

/-! ## C119: the nonce -/

theorem eraseIdx_map' {α β : Type} (f : α → β) (l : List α) (k : Nat) :
    (l.map f).eraseIdx k = (l.eraseIdx k).map f := by
  induction l generalizing k with
  | nil => rfl
  | cons a l ih => cases k <;> simp [ih]

/-- C119: setting the nonce when the first tag named `nonce` has at least two values replaces its second
value, and its third by the target (or drops what follows the second without a target); all other tags read
back the same wherever the block moves to. When memory runs out, the other tags still read back the same. -/
theorem C119_update_partial {cfg : Option Config.Config} {s : St} {pre post : List (List Bytes)} {v1 : Bytes}
    {rest : List Bytes} (h : Hist cfg s (pre ++ (c!"nonce" :: v1 :: rest) :: post))
    (hpre : ∀ t ∈ pre, t.head? ≠ some (c!"nonce")) {A : Alloc} (hA : A.Valid) (tagsMem : Bool) (locals : Nat) {n : Nat}
    {target : Int} (hn : n < 2 ^ 64) (ht : target < 2 ^ 31) :
    ∃ s' code, addNonce cfg A tagsMem s locals n target = .ok (s', code) ∧
      (code = none ∧ readTags s'.mem s'.tags = .ok (pre ++ (c!"nonce" :: Num.decNat n ::
          (if target > 0 then Num.decInt target :: rest.drop 1 else [])) :: post) ∨
        code = some .memory ∧
          readTags s'.mem (s'.tags.eraseIdx pre.length) = .ok (pre ++ post)) ∧
      ∀ x, x < s.base ∨ s.base + s.cap ≤ x → s.mem x ≠ none → s'.mem x = s.mem x := by
  obtain ⟨os, i, t⟩ := hist_inv h
  generalize hts : pre ++ (c!"nonce" :: v1 :: rest) :: post = ts at *
  have hf := findNonce_ok (m := s.mem) 0 i.arrays
    (fun p t hl => ⟨(i.texts p t hl).1, (i.texts p t hl).2, Inv.bound i hl⟩) t
  rw [← i.tags] at hf
  have hidx : Nip13.findNonce ts = some pre.length := by
    unfold Nip13.findNonce
    rw [List.findIdx?_eq_some_iff_getElem]
    refine ⟨by rw [← hts]; simp, ?_, ?_⟩
    · simp [← hts, Nip13.isNonce]
    · intro j hj
      have hjp : ts[j]'(by rw [← hts]; simp; omega) = pre[j] := by
        simp only [← hts]
        rw [List.getElem_append_left hj]
      rw [hjp]
      have := hpre pre[j] (List.getElem_mem hj)
      simp [Nip13.isNonce, this]
  have hk : pre.length < ts.length := by rw [← hts]; simp
  have hko : pre.length < os.length := by
    have := congrArg List.length t
    simp only [texts, List.length_map] at this
    omega
  have hrow : os[pre.length].vals.map Prod.snd = (c!"nonce" :: v1 :: rest).map some := by
    have := congrArg (fun l => l[pre.length]?) t
    simp only [texts, List.getElem?_map, List.getElem?_eq_getElem hko, List.getElem?_eq_getElem hk,
      Option.map_some, Option.some.injEq] at this
    rw [this]
    simp [← hts]
  have hlen : 2 ≤ os[pre.length].vals.length := by
    have := congrArg List.length hrow
    simp only [List.length_map, List.length_cons] at this
    omega
  have hset : ∀ r, (ts.map (·.map some)).set pre.length r =
      pre.map (·.map some) ++ r :: post.map (·.map some) := by
    intro r
    rw [← hts]
    simp
  have herase : ∀ (s' : St) (os' : List Obj) (r : List (Option Bytes)), Inv s' os' →
      texts os' = pre.map (·.map some) ++ r :: post.map (·.map some) →
      readTags s'.mem (s'.tags.eraseIdx pre.length) = .ok (pre ++ post) := by
    intro s' os' r i' t'
    rw [i'.tags]
    have : (os'.map Obj.tag).eraseIdx pre.length = (os'.eraseIdx pre.length).map Obj.tag := by
      rw [eraseIdx_map']
    rw [this]
    have sub : ∀ o, o ∈ os'.eraseIdx pre.length → o ∈ os' := fun o ho => List.mem_of_mem_eraseIdx ho
    refine readTags_ok (fun o ho => i'.arrays o (sub o ho)) (fun p t ⟨o, ho, hq⟩ => ?_) ?_
    · have hl : Live os' p t := ⟨o, sub o ho, hq⟩
      exact ⟨(i'.texts p t hl).2, Inv.bound i' hl⟩
    · have : texts (os'.eraseIdx pre.length) = (texts os').eraseIdx pre.length := by
        unfold texts
        rw [eraseIdx_map']
      rw [this, t']
      have hpl : pre.length = (pre.map (·.map some)).length := by simp
      conv => lhs; rw [hpl]
      rw [List.eraseIdx_append_of_length_le (Nat.le_refl _)]
      simp
  unfold addNonce
  rw [hf, hidx, Res.bind_ok]
  simp only [Option.map_some, Nat.add_zero]
  rcases updateNonce_ok i hA hko hlen (decNat_small hn).1 (decNat_small hn).2
    (target := if target > 0 then some (Num.decInt target) else none)
    (fun t e1 => by
      split at e1
      · rename_i hp
        simp only [Option.some.injEq] at e1
        subst e1
        exact decInt_small (by omega) ht
      · simp at e1) with ⟨s1, os1, e1, i1, k1, t1⟩ | ⟨s1, os1, e1, i1, k1, t1⟩
  · refine ⟨s1, none, e1, .inl ⟨rfl, i1.read ?_⟩, fun x hx hn => (k1 x hx hn).1⟩
    rw [t1, t, hset, hrow]
    split
    · simp [renewed]
    · simp [renewed]
  · refine ⟨s1, some .memory, e1, .inr ⟨rfl, ?_⟩, fun x hx hn => (k1 x hx hn).1⟩
    rcases t1 with t1 | ⟨t1, _⟩ | ⟨_, _, t1⟩
    · exact herase s1 os1 ((c!"nonce" :: v1 :: rest).map some) i1 (by rw [t1, t, ← hts]; simp)
    · exact herase s1 os1 _ i1 (by rw [t1, t, hset])
    · exact herase s1 os1 _ i1 (by rw [t1, t, hset])

/-- The event with the long tag and a nonce tag `["nonce", "0"]`. -/
def n1 : St := after (addTag none noMemory true s1 108 2) s1

theorem histn : Hist none n1 [[long], [c!"nonce", c!"0"]] := by
  have hg : Given s1 108 [c!"nonce", c!"0"] := given_of_check [1300, 1310] (by decide) rfl (by decide +kernel)
  have e : look (addTag none noMemory true s1 108 2) = some (none, [(4096, 1), (5069, 2)]) := by decide +kernel
  have h := Hist.add (tagsMem := true) hist1 noMemory_valid hg (look_ok s1 e)
  rw [if_pos rfl] at h
  exact h

/-- The hypotheses of `C119_update_partial` can be met; here the block is moved in the middle of the update. -/
example : look (addNonce none mover true n1 108 7 8) = some (none, [(40960, 1), (41959, 3)]) := by decide +kernel

example := C119_update_partial (pre := [[long]]) (post := []) (v1 := c!"0") (rest := []) histn
  (by decide +kernel) mover_valid true 108 (n := 7) (target := 8) (by decide) (by decide)

/-- C119 is false of failures: when memory runs out in the middle, the error is reported but the nonce tag has
been changed, and its third value is a NULL pointer. -/
theorem C119_failure_refuted : ¬ ∀ (cfg : Option Config.Config) (s : St) (ts : List (List Bytes)), Hist cfg s ts →
    ∀ A : Alloc, A.Valid → ∀ (locals n : Nat) (target : Int) (s' : St) (x : Err),
      Given s locals (nonceValues n target) → addNonce cfg A true s locals n target = .ok (s', some x) →
      readTags s'.mem s'.tags = .ok ts := by
  intro h
  have hg : Given n1 108 (nonceValues 0 8) := given_of_check [1300, 1310, 1320] (by decide) rfl (by decide +kernel)
  have e : look (addNonce none noMemory true n1 108 0 8) = some (some .memory, [(4096, 1), (5095, 3)]) := by
    decide +kernel
  have := h none n1 _ histn noMemory noMemory_valid 108 0 8 _ .memory hg (look_ok n1 e)
  have e2 : readTags (after (addNonce none noMemory true n1 108 0 8) n1).mem
      (after (addNonce none noMemory true n1 108 0 8) n1).tags = .ub := by decide +kernel
  rw [e2] at this
  simp at this

/-- In that case the third value is NULL. -/
theorem C119_null_value : readPtr (after (addNonce none noMemory true n1 108 0 8) n1).mem (5095 + 16) = .ok 0 := by
  decide +kernel

/-! ## C82: a nonce tag without a nonce -/

/-- The event with the tags `["nonce"]` and `["p"]`. -/
def c1 : St := after (addTag none noMemory true s0 108 1) s0

/-- The second tag. -/
def c2 : St := after (addTag none noMemory true c1 132 1) c1

theorem histc : Hist none c2 [[c!"nonce"], [c!"p"]] := by
  have hg : Given s0 108 [c!"nonce"] := given_of_check [1300] (by decide) rfl (by decide +kernel)
  have e : look (addTag none noMemory true s0 108 1) = some (none, [(4096, 1)]) := by decide +kernel
  have h1 : Hist none c1 [[c!"nonce"]] := by
    have h := Hist.add (tagsMem := true) hist0 noMemory_valid hg (look_ok s0 e)
    rw [if_pos rfl] at h
    exact h
  have hg2 : Given c1 132 [c!"p"] := given_of_check [1330] (by decide) rfl (by decide +kernel)
  have e2 : look (addTag none noMemory true c1 132 1) = some (none, [(4096, 1), (4110, 1)]) := by decide +kernel
  have h := Hist.add (tagsMem := true) h1 noMemory_valid hg2 (look_ok c1 e2)
  rw [if_pos rfl] at h
  exact h

/-- C82, seen in the memory: setting the nonce of an event whose tag `nonce` has no second value succeeds and
destroys the array of the tag behind it, because the pointer to the nonce is stored over the text `nonce` and two
bytes of that array. -/
theorem C82_corrupts_refuted : ¬ ∀ (cfg : Option Config.Config) (s : St) (ts : List (List Bytes)), Hist cfg s ts →
    ∀ A : Alloc, A.Valid → ∀ (locals n : Nat) (target : Int) (s' : St),
      Given s locals (nonceValues n target) → addNonce cfg A true s locals n target = .ok (s', none) →
      ∀ (k : Nat) (t : List Bytes), ts[k]? = some t → t.head? ≠ some (c!"nonce") → ∃ a, s'.tags[k]? = some a ∧
        readTags s'.mem [a] = .ok [t] := by
  intro h
  have hg : Given c2 108 (nonceValues 0 8) := given_of_check [1300, 1310, 1320] (by decide) rfl (by decide +kernel)
  have e : look (addNonce none noMemory true c2 108 0 8) = some (none, [(4122, 3), (4110, 1)]) := by
    decide +kernel
  obtain ⟨a, h1, h2⟩ := h none c2 _ histc noMemory noMemory_valid 108 0 8 _ hg (look_ok c2 e) 1 (c!"p" :: []) rfl (by decide)
  have e2 : (after (addNonce none noMemory true c2 108 0 8) c2).tags = [(4122, 3), (4110, 1)] := by decide +kernel
  rw [e2] at h1
  simp only [List.getElem?_cons_succ, List.getElem?_cons_zero, Option.some.injEq] at h1
  subst h1
  have e3 : readTags (after (addNonce none noMemory true c2 108 0 8) c2).mem [(4110, 1)] = .ub := by decide +kernel
  rw [e3] at h2
  simp at h2

end Nostr.Arena.Props
