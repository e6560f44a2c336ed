import Verif.Arena.Nonce
import Verif.Nip13.Model

/-!
# C18: the tags of an event survive the growth of the memory they are kept in

C119: so they do when the nonce tag is rewritten in place.
-/

namespace Nostr.Arena.Props
open Nostr Nostr.Arena

/-! ## One addition -/

theorem zip_texts {ps : List Nat} {vs : List Bytes} (h : ps.length = vs.length) :
    ((ps.zip vs).map fun q => some q.2) = vs.map some := by
  rw [show (fun q : Nat × Bytes => some q.2) = some ∘ Prod.snd from rfl, ← List.map_map, List.map_snd_zip (by omega)]

/-- What an addition does to a good memory. -/
theorem addTag_ok {cfg : Option Config.Config} {A : Alloc} {s : St} {os : List Obj} (h : Inv s os)
    (hA : A.Valid) {values : Nat} {vs : List Bytes} (hg : Given s values vs) (tagsMem : Bool) :
    (∃ s' os', addTag cfg A tagsMem s values vs.length = .ok (s', none) ∧ Inv s' os' ∧
      texts os' = texts os ++ [vs.map some] ∧ Keeps s s' ∧ vs ≠ [] ∧
      cfg.any (fun c => decide (s.tags.length ≥ c.maxTags)) = false) ∨
    ∃ s' os' code, addTag cfg A tagsMem s values vs.length = .ok (s', some code) ∧ Inv s' os' ∧
      texts os' = texts os ∧ Keeps s s' ∧ (code = .memory ∨ code = .invalidParam) := by
  obtain ⟨hv, ps, hl, hs⟩ := hg
  have hzl : (ps.zip vs).length = vs.length := by simp [hl]
  have fail : ∀ c : Err, c = .memory ∨ c = .invalidParam →
      (∃ s' os' code, (Res.ok (s, some c) : Res (St × Option Err)) = .ok (s', some code) ∧ Inv s' os' ∧
        texts os' = texts os ∧ Keeps s s' ∧ (code = .memory ∨ code = .invalidParam)) :=
    fun c hc => ⟨s, os, c, rfl, h, rfl, Keeps.refl s, hc⟩
  unfold addTag
  split
  · exact .inr (fail _ (.inr rfl))
  · rename_i h0
    split
    · exact .inr (fail _ (.inr rfl))
    · rename_i h1
      split
      · exact .inr (fail _ (.inr rfl))
      · have := stringsSize_ok hs 0
        rw [hzl] at this
        rcases this with e | ⟨e, _⟩
        · rw [e]
          simp only [Nat.zero_add]
          split
          · exact .inr (fail _ (.inr rfl))
          · have hp := place_ok h hA hs tagsMem
            rw [hzl, zip_texts hl] at hp
            rcases hp with ⟨s', os', e, i, t, k⟩ | ⟨s', os', e, i, t, k⟩
            · exact .inr ⟨s', os', _, e, i, t, k, .inl rfl⟩
            · refine .inl ⟨s', os', e, i, t, k, ?_, by simpa using h1⟩
              intro hn
              subst hn
              exact h0 (.inr rfl)
        · rw [e]
          exact .inr (fail _ (.inr rfl))

/-! ## Finding the nonce tag -/

theorem findNonce_ok {m : Mem} {os : List Obj} {ts : List (List Bytes)} (i : Nat)
    (ha : ∀ o ∈ os, PtrsAt m o.addr o.ptrs) (ht : ∀ p t, Live os p t → p ≠ 0 ∧ StrAt m p t ∧ t.length < 2 ^ 64)
    (hx : texts os = ts.map (·.map some)) :
    Arena.findNonce m (os.map Obj.tag) i = .ok ((Nip13.findNonce ts).map (· + i)) := by
  induction os generalizing ts i with
  | nil =>
      cases ts with
      | nil => rfl
      | cons t ts => simp [texts] at hx
  | cons o os ih =>
      cases ts with
      | nil => simp [texts] at hx
      | cons t ts =>
          simp only [texts, List.map_cons, List.cons.injEq] at hx
          have IH := ih (i + 1) (fun o' ho' => ha o' (by simp [ho']))
            (fun p t' ⟨o', ho', hq⟩ => ht p t' ⟨o', by simp [ho'], hq⟩) (show texts os = _ from hx.2)
          have hlen : o.vals.length = t.length := by simpa using congrArg List.length hx.1
          have next : (Nip13.findNonce ts).map (· + (i + 1)) = ((Nip13.findNonce ts).map (· + 1)).map (· + i) := by
            cases Nip13.findNonce ts <;> simp <;> omega
          simp only [List.map_cons, Arena.findNonce, Obj.tag]
          unfold Nip13.findNonce at next IH ⊢
          rw [List.findIdx?_cons]
          cases t with
          | nil =>
              rw [if_pos (by simpa using hlen), if_neg (by decide), ← next]
              exact IH
          | cons v vs =>
              obtain ⟨q, qs, hq⟩ : ∃ q qs, o.vals = q :: qs := by
                cases hv : o.vals with
                | nil => rw [hv] at hlen; simp at hlen
                | cons q qs => exact ⟨q, qs, rfl⟩
              have hqv : q.2 = some v := by
                have := hx.1
                rw [hq] at this
                simp only [List.map_cons, List.cons.injEq] at this
                exact this.1
              have hlive := ht q.1 v ⟨o, by simp, by rw [hq, ← hqv]; simp⟩
              have harr := ha o (by simp)
              rw [show o.ptrs = q.1 :: qs.map Prod.fst by simp [Obj.ptrs, hq]] at harr
              rw [if_neg (by rw [hlen]; simp), readPtr_iff.2 harr.1, Res.bind_ok, if_neg hlive.1,
                readStr_ok hlive.2.1 hlive.2.2, Res.bind_ok]
              by_cases hn : v = c!"nonce"
              · rw [if_pos hn, if_pos (by simp [Nip13.isNonce, hn])]
                simp
              · rw [if_neg hn, if_neg (by simp [Nip13.isNonce, hn]), ← next]
                exact IH

theorem Inv.bound {s : St} {os : List Obj} (h : Inv s os) {p : Nat} {t : Bytes} (hl : Live os p t) :
    t.length < 2 ^ 64 := by
  have h1 := h.inText p t hl
  have h2 := h.top
  have h3 := h.used
  have h4 := h.base
  omega

/-! ## Histories -/

theorem decNat_small {n : Nat} (h : n < 2 ^ 64) : CStr (Num.decNat n) ∧ (Num.decNat n).length + 1 ≤ 1024 := by
  refine ⟨fun hm => ?_, ?_⟩
  · have := Num.decNat_digits n 0 hm
    exact absurd this (by decide)
  · have := Num.decNat_length (n := n) (k := 20) (by omega) (by omega)
    omega

theorem decInt_small {n : Int} (h0 : 0 < n) (h : n < 2 ^ 31) :
    CStr (Num.decInt n) ∧ (Num.decInt n).length + 1 ≤ 1024 := by
  refine ⟨fun hm => ?_, ?_⟩
  · have := Num.decInt_chars n 0 hm
    exact absurd this (by decide)
  · have := Num.decInt_length n (by omega) (by omega)
    omega

theorem addTag_tags {cfg : Option Config.Config} {e e' : Event.Event} {vs : List Bytes}
    (h : Event.addTag cfg e vs = .ok e') : e'.tags = e.tags ++ [vs] := by
  unfold Event.addTag at h
  split at h
  · exact absurd h (by simp)
  · split at h
    · exact absurd h (by simp)
    · simp only [Res.ok.injEq] at h
      rw [← h]

/-- The update of an existing nonce tag in a good memory does what the model of the values says. -/
theorem nonce_ok {cfg : Option Config.Config} {A : Alloc} {s s' : St} {os : List Obj} {e e' : Event.Event}
    (h : Inv s os) (hx : texts os = e.tags.map (·.map some)) (hA : A.Valid) {locals n : Nat} {target : Int}
    {tagsMem : Bool} (hg : Given s locals (nonceValues n target)) (hn : n < 2 ^ 64) (ht : target < 2 ^ 31)
    (he : Nip13.addNonce cfg e n target = .ok e')
    (hr : addNonce cfg A tagsMem s locals n target = .ok (s', none)) :
    ∃ os', Inv s' os' ∧ texts os' = e'.tags.map (·.map some) ∧ Keeps s s' := by
  have hf := findNonce_ok (m := s.mem) 0 h.arrays
    (fun p t hl => ⟨(h.texts p t hl).1, (h.texts p t hl).2, Inv.bound h hl⟩) hx
  rw [← h.tags] at hf
  unfold addNonce at hr
  rw [hf, Res.bind_ok] at hr
  unfold Nip13.addNonce at he
  cases hi : Nip13.findNonce e.tags with
  | none =>
      rw [hi] at hr he
      simp only [Option.map_none] at hr he
      have hl : (nonceValues n target).length = if target > 0 then 3 else 2 := by
        unfold nonceValues; split <;> rfl
      rw [← hl] at hr
      rcases addTag_ok (cfg := cfg) h hA hg tagsMem with ⟨s1, os1, e1, i1, t1, k1, _⟩ | ⟨s1, os1, c, e1, _⟩
      · rw [e1] at hr
        simp only [Res.ok.injEq, Prod.mk.injEq, and_true] at hr
        subst hr
        refine ⟨os1, i1, ?_, k1⟩
        rw [t1, hx]
        rw [addTag_tags he]
        simp [nonceValues]
      · rw [e1] at hr
        simp at hr
  | some i =>
      rw [hi] at hr he
      simp only [Option.map_some, Nat.add_zero] at hr he
      have hit : i < e.tags.length := by
        unfold Nip13.findNonce at hi
        exact (List.findIdx?_eq_some_iff_getElem.1 hi).1
      have hio : i < os.length := by
        have := congrArg List.length hx
        simp only [texts, List.length_map] at this
        omega
      have hrow : os[i].vals.map Prod.snd = e.tags[i].map some := by
        have := congrArg (fun l => l[i]?) hx
        simp only [texts, List.getElem?_map, List.getElem?_eq_getElem hio, List.getElem?_eq_getElem hit,
          Option.map_some, Option.some.injEq] at this
        exact this
      have hgd : e.tags.getD i [] = e.tags[i] := by simp [List.getD, List.getElem?_eq_getElem hit]
      rw [hgd] at he
      obtain ⟨t', ht', he'⟩ := Res.bind_eq_ok.1 he
      simp only [Res.ok.injEq] at he'
      have h2 : 2 ≤ e.tags[i].length := by
        unfold Nip13.updateNonce at ht'
        split at ht' <;> rename_i heq <;> simp_all
      have hlen : os[i].vals.length = e.tags[i].length := by simpa using congrArg List.length hrow
      rcases updateNonce_ok h hA hio (by omega) (decNat_small hn).1 (decNat_small hn).2
        (target := if target > 0 then some (Num.decInt target) else none)
        (fun t e1 => by
          split at e1
          · rename_i hp
            simp only [Option.some.injEq] at e1
            subst e1
            exact decInt_small (by omega) ht
          · simp at e1) with ⟨s1, os1, e1, i1, k1, t1⟩ | ⟨s1, os1, e1, _⟩
      · rw [e1] at hr
        simp only [Res.ok.injEq, Prod.mk.injEq, and_true] at hr
        subst hr
        refine ⟨os1, i1, ?_, k1⟩
        rw [t1, hx, ← he', hrow]
        simp only [List.map_set]
        congr 1
        revert ht' h2
        generalize e.tags[i] = row
        intro ht' h2
        match row, h2 with
        | a :: b :: r, _ =>
            simp only [Nip13.updateNonce] at ht'
            split at ht' <;> rename_i hp <;> simp only [Res.ok.injEq] at ht' <;> subst ht'
            · simp [renewed, hp]
            · simp [renewed, hp]
      · rw [e1] at hr
        simp at hr

theorem create_inv {m : Mem} {base : Nat} (h1 : 0 < base) (h2 : base + 1024 ≤ 2 ^ 64) :
    Inv (Arena.create m base) [] :=
  { used := by simp [Arena.create]
    cap := by simp [Arena.create]
    small := by simp [Arena.create]
    base := h1
    top := h2
    mapped := fun x a b => by
      simp only [Arena.create] at a b ⊢
      rw [if_pos ⟨a, b⟩]
      simp
    tags := rfl
    arrays := by simp
    texts := fun p t ⟨o, ho, _⟩ => by simp at ho
    nulls := by simp
    inArray := by simp
    inText := fun p t ⟨o, ho, _⟩ => by simp at ho
    away := by simp
    clear := by simp }

theorem caller_inv {s : St} {os : List Obj} (h : Inv s os) {m : Mem}
    (hm : ∀ x, s.base ≤ x → x < s.base + s.cap → m x = s.mem x) : Inv { s with mem := m } os := by
  have hu := h.used
  exact { h with
    mapped := fun x a b => by
      simp only at a b ⊢
      rw [hm x a b]; exact h.mapped x a b
    arrays := fun o ho => (h.arrays o ho).frame (fun x a b => hm x
      (by have := h.inArray o ho; omega)
      (by have := h.inArray o ho; rw [Obj.ptrs_length] at b; omega))
    texts := fun p t hl => ⟨(h.texts p t hl).1, (h.texts p t hl).2.frame (fun x a b => hm x
      (by have := h.inText p t hl; omega) (by have := h.inText p t hl; omega))⟩ }

/-- Every history keeps the memory good, and the tags in it are the ones they should be. -/
theorem hist_inv {cfg : Option Config.Config} {s : St} {ts : List (List Bytes)} (h : Hist cfg s ts) :
    ∃ os, Inv s os ∧ texts os = ts.map (·.map some) := by
  induction h with
  | create h1 h2 _ => exact ⟨[], create_inv h1 h2, rfl⟩
  | caller _ hm ih =>
      obtain ⟨os, i, t⟩ := ih
      exact ⟨os, caller_inv i hm, t⟩
  | @add s s' ts A tagsMem values vs code _ hA hg e ih =>
      obtain ⟨os, i, t⟩ := ih
      rcases addTag_ok (cfg := cfg) i hA hg tagsMem with ⟨s1, os1, e1, i1, t1, _⟩ | ⟨s1, os1, c, e1, i1, t1, _⟩
      · rw [e1] at e
        simp only [Res.ok.injEq, Prod.mk.injEq] at e
        rw [← e.1, if_pos e.2.symm]
        exact ⟨os1, i1, by rw [t1, t]; simp⟩
      · rw [e1] at e
        simp only [Res.ok.injEq, Prod.mk.injEq] at e
        rw [← e.1, if_neg (by rw [← e.2]; simp)]
        exact ⟨os1, i1, by rw [t1, t]⟩
  | nonce _ hA hg hn ht he hr ih =>
      obtain ⟨os, i, t⟩ := ih
      obtain ⟨os', i', t', _⟩ := nonce_ok i t hA hg hn ht he hr
      exact ⟨os', i', t'⟩

/-! ## C18 -/

/-- C18: after any history — additions, successful or not, with the block growing and moving, the owner of
the event using their own memory in between — the tags read back from the memory are exactly the added ones. -/
theorem C18_tags {cfg : Option Config.Config} {s : St} {ts : List (List Bytes)} (h : Hist cfg s ts) :
    readTags s.mem s.tags = .ok ts := by
  obtain ⟨os, i, t⟩ := hist_inv h
  exact i.read t

/-- C18: one more addition, with arguments outside the event, has no undefined behaviour whatever the allocator
does; it succeeds and appends the tag, or reports an error and the tags read back are the same as before.
Nothing outside the event changes. -/
theorem C18_add {cfg : Option Config.Config} {s : St} {ts : List (List Bytes)} (h : Hist cfg s ts) {A : Alloc}
    (hA : A.Valid) {values : Nat} {vs : List Bytes} (hg : Given s values vs) (tagsMem : Bool) :
    ∃ s' code, addTag cfg A tagsMem s values vs.length = .ok (s', code) ∧
      (code = none ∧ readTags s'.mem s'.tags = .ok (ts ++ [vs]) ∨
        (code = some .memory ∨ code = some .invalidParam) ∧ readTags s'.mem s'.tags = .ok ts) ∧
      ∀ x, x < s.base ∨ s.base + s.cap ≤ x → s.mem x ≠ none → s'.mem x = s.mem x := by
  obtain ⟨os, i, t⟩ := hist_inv h
  rcases addTag_ok (cfg := cfg) i hA hg tagsMem with ⟨s1, os1, e1, i1, t1, k1, _⟩ | ⟨s1, os1, c, e1, i1, t1, k1, hc⟩
  · refine ⟨s1, none, e1, .inl ⟨rfl, i1.read ?_⟩, fun x hx hn => (k1 x hx hn).1⟩
    rw [t1, t]; simp
  · refine ⟨s1, some c, e1, .inr ⟨?_, i1.read (by rw [t1, t])⟩, fun x hx hn => (k1 x hx hn).1⟩
    rcases hc with rfl | rfl <;> simp

theorem doubling_some {f cap required : Nat} (h0 : 0 < cap) (hr : required ≤ 2 ^ 62) (hf : required ≤ cap * 2 ^ f)
    (hc : cap < required) : ∃ n, doubling (f + 1) cap required = some n ∧ n ≤ 2 * required := by
  induction f generalizing cap with
  | zero => simp at hf; omega
  | succ f ih =>
      have hm : cap * 2 % 2 ^ 64 = cap * 2 := Nat.mod_eq_of_lt (by omega)
      rw [doubling, if_pos hc, hm, if_neg (by omega)]
      by_cases h : cap * 2 < required
      · exact ih (by omega) (by rw [Nat.pow_succ] at hf; rw [Nat.mul_assoc, Nat.mul_comm 2]; exact hf) h
      · refine ⟨cap * 2, ?_, by omega⟩
        rw [doubling, if_neg h]

/-- The storage of a tag: a pointer and a terminated text for each value. -/
def storage (vs : List Bytes) : Nat := 8 * vs.length + (vs.map fun v => v.length + 1).sum

theorem room_zip {ps : List Nat} {vs : List Bytes} (h : ps.length = vs.length) :
    room (ps.zip vs) = (vs.map fun v => v.length + 1).sum := by
  induction vs generalizing ps with
  | nil => simp [room]
  | cons v vs ih =>
      cases ps with
      | nil => simp at h
      | cons p ps =>
          simp only [List.length_cons, Nat.add_right_cancel_iff] at h
          simp [room, ih h]

/-- C18: errors are not gratuitous. With memory available, a non-empty tag below the configured number of tags
is added. -/
theorem C18_succeeds {cfg : Option Config.Config} {s : St} {ts : List (List Bytes)} (h : Hist cfg s ts) {A : Alloc}
    (hA : A.Valid) {values : Nat} {vs : List Bytes} (hg : Given s values vs) (hne : vs ≠ [])
    (hcfg : ∀ c, cfg = some c → ts.length < c.maxTags) (hsz : s.used + storage vs ≤ 2 ^ 62)
    (hmem : ∀ n, n ≤ 2 * (s.used + storage vs) → A s n ≠ none) :
    ∃ s', addTag cfg A true s values vs.length = .ok (s', none) ∧
      readTags s'.mem s'.tags = .ok (ts ++ [vs]) := by
  obtain ⟨os, i, t⟩ := hist_inv h
  have hlen : s.tags.length = ts.length := by
    have := congrArg List.length t
    simp only [texts, List.length_map] at this
    rw [i.tags]; simpa using this
  have hadd := C18_add h hA hg true
  obtain ⟨hv, ps, hl, hs⟩ := hg
  have hzl : (ps.zip vs).length = vs.length := by simp [hl]
  have hpos : 0 < vs.length := List.length_pos_iff.2 hne
  suffices hh : ∃ s', addTag cfg A true s values vs.length = .ok (s', none) by
    obtain ⟨s', e⟩ := hh
    obtain ⟨s2, c, e2, hc, _⟩ := hadd
    rw [e] at e2
    simp only [Res.ok.injEq, Prod.mk.injEq] at e2
    obtain ⟨rfl, rfl⟩ := e2
    rcases hc with ⟨_, hr⟩ | ⟨h1, _⟩
    · exact ⟨s', e, hr⟩
    · simp at h1
  have hroom := room_zip hl
  have hst : storage vs = 8 * vs.length + room (ps.zip vs) := by rw [hroom]; rfl
  have hsm : sizeMax = 2 ^ 64 - 1 := rfl
  have key : ∀ (s1 : St) (os1 : List Obj), Inv s1 os1 → Keeps s s1 → s1.used = s.used →
      s.used + storage vs ≤ s1.cap →
      ∃ s', append true s1 values vs.length (room (ps.zip vs)) = .ok (s', none) := by
    intro s1 os1 i1 k1 u1 c1
    have hs1 := (k1.src i1 hs).narrow (lo' := s1.base + s1.used) (hi' := s1.base + s1.cap) (by omega) (by omega)
    have := append_ok i1 hs1 true
    rw [hzl] at this
    rcases this with ⟨_, _, _, _, hbad⟩ | ⟨s', o, e, _⟩
    · rcases hbad with hb | hb
      · exact absurd hb (by simp)
      · omega
    · exact ⟨s', e⟩
  unfold addTag
  rw [if_neg (by omega)]
  rw [if_neg (by
    rw [hlen]
    cases hc : cfg with
    | none => simp
    | some c => have := hcfg c hc; simp; omega)]
  rw [if_neg (by omega)]
  have hss := stringsSize_ok hs 0
  rw [hzl] at hss
  rcases hss with e | ⟨_, hbad⟩
  · rw [e]
    simp only [Nat.zero_add]
    rw [if_neg (by omega)]
    unfold place
    rw [← hst, Nat.mod_eq_of_lt (by omega)]
    by_cases hgr : s.used + storage vs > s.cap
    · rw [if_pos hgr]
      have hcap := i.cap
      obtain ⟨n, hd, hn⟩ := doubling_some (f := 64) (cap := s.cap) (required := s.used + storage vs) (by omega) hsz
        (by omega) hgr
      rw [hd]
      rcases grow_ok i hA (newCap := n) (doubling_ge hd).1 with g | ⟨s1, f, g, i1, _, _, k1, c1, u1⟩
      · exfalso
        unfold grow at g
        cases hAn : A s n with
        | none => exact hmem n hn hAn
        | some nb =>
            rw [hAn] at g
            simp only at g
            split at g
            · simp at g
            · obtain ⟨r, _, h3⟩ := Res.bind_eq_ok.1 g
              simp at h3
      · simp only [g, Res.bind_ok]
        exact key s1 _ i1 k1 u1 (by rw [c1]; exact (doubling_ge hd).2)
    · rw [if_neg hgr]
      exact key s os i (Keeps.refl s) rfl (by omega)
  · omega

/-- C18: the memory refines the lists. What `nostr_event_add_tag` does to the memory is what the model with lists
(`Event.addTag`, used by all other theorems about events) does to the tags, but for running out of memory and
sizes beyond `SIZE_MAX`. -/
theorem C18_refines {cfg : Option Config.Config} {s s' : St} {e : Event.Event} (h : Hist cfg s e.tags) {A : Alloc}
    (hA : A.Valid) {values : Nat} {vs : List Bytes} (hg : Given s values vs) {tagsMem : Bool} {code : Option Err}
    (hr : addTag cfg A tagsMem s values vs.length = .ok (s', code)) :
    (code = none → ∃ e', Event.addTag cfg e vs = .ok e' ∧ readTags s'.mem s'.tags = .ok e'.tags) ∧
    (∀ x, Event.addTag cfg e vs = .err x → code = some x) := by
  obtain ⟨os, i, t⟩ := hist_inv h
  have hlen : s.tags.length = e.tags.length := by
    have := congrArg List.length t
    simp only [texts, List.length_map] at this
    rw [i.tags]; simpa using this
  have hv := hg.1
  constructor
  · intro hc
    subst hc
    rcases addTag_ok (cfg := cfg) i hA hg tagsMem with ⟨s1, os1, e1, i1, t1, _, hne, hlim⟩ | ⟨s1, os1, c, e1, _⟩
    · rw [e1] at hr
      simp only [Res.ok.injEq, Prod.mk.injEq, and_true] at hr
      subst hr
      refine ⟨{ e with tags := e.tags ++ [vs] }, ?_, i1.read (by rw [t1, t]; simp)⟩
      unfold Event.addTag
      rw [if_neg hne, if_neg (by rw [hlen] at hlim; simp [hlim])]
    · rw [e1] at hr
      simp at hr
  · intro x hx
    unfold Event.addTag at hx
    unfold addTag at hr
    split at hx
    · rename_i hn
      subst hn
      rw [if_pos (.inr rfl)] at hr
      simp only [Res.ok.injEq, Prod.mk.injEq, Res.err.injEq] at hr hx
      rw [← hr.2, ← hx]
    · rename_i hn
      split at hx
      · rename_i hlim
        have hpos : 0 < vs.length := List.length_pos_iff.2 hn
        rw [if_neg (by omega), hlen, if_pos hlim] at hr
        simp only [Res.ok.injEq, Prod.mk.injEq, Res.err.injEq] at hr hx
        rw [← hr.2, ← hx]
      · simp at hx

end Nostr.Arena.Props
