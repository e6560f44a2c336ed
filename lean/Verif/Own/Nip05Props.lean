import Verif.Own.Basic
import Verif.Own.Nip05
import Verif.Own.EvProps

/-! # Property theorems: memory of identifier look-ups (C141, C142) -/

namespace Nostr.Own.Nip05.Props
open Nostr Nostr.Heap Nostr.Own Nostr.Own.Nip05 Nostr.Nip05 Nostr.Filter.Own

/-! ## Lemmas -/

theorem collect_length (n : Nat) (before : Bytes) (st : Option Bytes) (s : Bytes) (hn : st ≠ none → n ≠ 0) :
    (collect n before st s).length ≤ n := by
  induction s generalizing n before st with
  | nil => simp [collect]
  | cons c s ih =>
    cases st with
    | none =>
      cases n with
      | zero => simp [collect]
      | succ n =>
        rw [collect]
        · split
          · simp
          · split
            · exact ih _ _ _ (by simp)
            · exact ih _ _ _ (by simp)
        · simp
    | some url =>
      rw [collect]
      have := hn (by simp)
      split
      · split
        · have := ih (n - 1) (c :: before) none (by simp)
          simp; omega
        · exact ih _ _ _ (by simp)
      · exact ih _ _ _ (fun _ => this)

theorem relaysOf_eq (json key : Bytes) : relaysOf json key =
    match listOf json key with
    | none => .ok []
    | some list =>
        if countLoop [] false list = 0 then .ok []
        else if countLoop [] false list > 100 then .err .invalidParam
        else .ok (collect (countLoop [] false list) [] none list) := by
  unfold relaysOf listOf
  cases strstr json (c!"\"relays\"") with
  | none => rfl
  | some p =>
    simp only [Option.bind_some]
    generalize skipColon (p.drop 8) = u
    split
    · rename_i q
      simp only [after, if_true, Option.bind_some]
      cases strstr (0x7b :: q) (0x22 :: key ++ [0x22]) with
      | none => rfl
      | some r =>
        simp only [Option.bind_some]
        generalize skipColon (r.drop (key.length + 2)) = w
        split
        · simp only [if_true]
        · rename_i h
          have : after 0x5b w = none := by
            unfold after
            split
            · rfl
            · rename_i c s
              rw [if_neg (by rintro rfl; exact h _ rfl)]
          unfold after at this
          rw [this]
    · rename_i h
      have : after 0x7b u = none := by
        unfold after
        split
        · rfl
        · rename_i c s
          rw [if_neg (by rintro rfl; exact h _ rfl)]
      rw [this]
      rfl

/-! ## C141 -/

/-- What the caller of a look-up finds: `v` are the relays, or the error, of the values. -/
def Outcome (A : Alloc) (h0 : Mem) (v : Res (List Bytes)) (st : Option Err) (p : Option Nat) (n : Nat) (h : Heap) : Prop :=
  (∃ x, st = some x ∧ p = none ∧ n = 0 ∧ h.mem = h0 ∧ (v = .err x ∨ (Refused A h0 ∧ (x = .memory ∨ x = .notFound)))) ∨
  ∃ l own h', st = none ∧ v = .ok l ∧ StrArr h.mem p n l own ∧ Owned h0 h.mem own ∧ freeStrings p n h = some ((), h') ∧ h'.mem = h0

theorem relays_ok {A : Alloc} (hA : Fresh A) (json key : Bytes) {h0 : Mem} {own : List Nat} {h : Heap} (o : Owned h0 h.mem own) :
    ∃ r h', relays A json key h = some (r, h') ∧
      ((∃ x, r = (some x, none, 0) ∧ h'.mem = h.mem ∧ (relaysOf json key = .err x ∨ (Refused A h0 ∧ x = .memory))) ∨
       ∃ l new, r.1 = none ∧ relaysOf json key = .ok l ∧ StrArr h'.mem r.2.1 r.2.2 l new ∧ Owned h0 h'.mem (new ++ own) ∧
         ∀ a ∈ own, h'.mem a = h.mem a) := by
  rw [relaysOf_eq]
  unfold relays
  cases listOf json key with
  | none => exact ⟨_, h, rfl, .inr ⟨[], [], rfl, rfl, .null, o, fun _ _ => rfl⟩⟩
  | some list =>
    simp only
    by_cases h1 : countLoop [] false list = 0
    · rw [if_pos h1, if_pos h1]
      exact ⟨_, h, rfl, .inr ⟨[], [], rfl, rfl, .null, o, fun _ _ => rfl⟩⟩
    rw [if_neg h1, if_neg h1]
    by_cases h2 : countLoop [] false list > 100
    · rw [if_pos h2, if_pos h2]
      exact ⟨_, h, rfl, .inl ⟨_, rfl, rfl, .inl rfl⟩⟩
    rw [if_neg h2, if_neg h2]
    have hl := collect_length (countLoop [] false list) [] none list (by simp)
    generalize collect (countLoop [] false list) [] none list = urls at hl ⊢
    generalize countLoop [] false list = n at hl ⊢
    simp only [M.bind]
    rcases alloc_cases hA (.ptrs (List.replicate n none)) h with ⟨hf, e1⟩ | ⟨d, e1, hm⟩
    · exact ⟨(some .memory, none, 0), ⟨h.mem, h.tick + 1⟩, by simp only [e1, Option.bind_some, M.pure], .inl ⟨_, rfl, rfl, .inr ⟨(Refused.here hf).back o.same, rfl⟩⟩⟩
    · simp only [e1, Option.bind_some]
      obtain ⟨b, h', e2, hx⟩ := fillLoop_ok hA urls [] [] n _ (Filling.start (t := h.tick + 1) hm) hl
      simp only [List.length_nil] at e2
      rcases hx with ⟨rfl, hf, m2⟩ | ⟨rfl, qs, f⟩
      · exact ⟨(some .memory, none, 0), h', by simp only [M.bind, e2, Option.bind_some, M.pure]; rfl, .inl ⟨_, rfl, m2, .inr ⟨hf.back o.same, rfl⟩⟩⟩
      · simp only [List.nil_append] at f
        obtain ⟨w, k⟩ := o.extend f.ext.nodup f.ext.fresh (fun a ha => by
          rcases List.mem_cons.1 ha with rfl | ha
          · rw [f.arr]; simp
          · exact f.strs.live a ha) f.ext.same
        refine ⟨(none, some d, urls.length), h', by simp only [M.bind, e2, Option.bind_some, M.pure]; rfl,
          .inr ⟨urls, d :: qs, rfl, rfl, ?_, w, k⟩⟩
        have := StrArr.arr f.arr f.strs
        rw [f.strs.length] at this
        exact this

theorem parseResponse_ok {A : Alloc} (hA : Fresh A) (json name : Bytes) (want : Bool) {h0 : Mem} {own : List Nat} {h : Heap}
    (o : Owned h0 h.mem own) :
    ∃ r h', parseResponse A json name want h = some (r, h') ∧
      ((∃ x, r.1 = some x ∧ r.2.2 = (none, 0) ∧ h'.mem = h.mem ∧ (Nostr.Nip05.parseResponse json name want = .err x ∨ (Refused A h0 ∧ x = .memory))) ∨
       ∃ l new, r.1 = none ∧ Nostr.Nip05.parseResponse json name want = .ok (r.2.1, l) ∧ StrArr h'.mem r.2.2.1 r.2.2.2 l new ∧
         Owned h0 h'.mem (new ++ own) ∧ ∀ a ∈ own, h'.mem a = h.mem a) := by
  have noub : keyOf json name ≠ .ub := by
    unfold keyOf
    repeat' split
    all_goals simp
  unfold parseResponse Nostr.Nip05.parseResponse
  cases hk : keyOf json name with
  | ub => exact absurd hk noub
  | err x => exact ⟨_, h, rfl, .inl ⟨x, rfl, rfl, rfl, .inl rfl⟩⟩
  | ok key =>
    simp only [Res.bind_ok]
    cases want with
    | false => exact ⟨_, h, rfl, .inr ⟨[], [], rfl, rfl, .null, o, fun _ _ => rfl⟩⟩
    | true =>
      simp only [if_true]
      obtain ⟨r, h', e, hx⟩ := relays_ok hA json key o
      rcases hx with ⟨x, rfl, m, hv⟩ | ⟨l, new, h1, h2, h3, h4, h5⟩
      · refine ⟨(some x, key, none, 0), h', by simp only [M.bind, e, Option.bind_some, M.pure], .inl ⟨x, rfl, rfl, m, ?_⟩⟩
        rcases hv with hv | hv
        · left; rw [hv]; rfl
        · exact .inr hv
      · exact ⟨(r.1, key, r.2), h', by simp only [M.bind, e, Option.bind_some, M.pure], .inr ⟨l, new, h1, by rw [h2]; rfl, h3, h4, h5⟩⟩

/-- **C141.** Reading a response, whatever its text and whatever the allocator refuses: memory that is not owned is never touched;
after a failure there are no relays and memory is as it was; otherwise the relays are those of the text, and
releasing them brings memory back. -/
theorem C141_response {A : Alloc} (hA : Fresh A) (json name : Bytes) (want : Bool) (h : Heap) :
    ∃ st key p n h', parseResponse A json name want h = some ((st, key, p, n), h') ∧
      Outcome A h.mem (Nostr.Nip05.parseResponse json name want >>= fun kr => .ok kr.2) st p n h' ∧
      (st = none → ∃ l, Nostr.Nip05.parseResponse json name want = .ok (key, l)) := by
  obtain ⟨⟨st, key, p, n⟩, h', e, hx⟩ := parseResponse_ok hA json name want (Owned.nil h.mem)
  refine ⟨st, key, p, n, h', e, ?_⟩
  rcases hx with ⟨x, rfl, h2, m, hv⟩ | ⟨l, new, h1, h2, h3, h4, -⟩
  · simp only [Prod.mk.injEq] at h2
    refine ⟨.inl ⟨x, rfl, h2.1, h2.2, m, ?_⟩, by simp⟩
    rcases hv with hv | hv
    · left; rw [hv]; rfl
    · exact .inr ⟨hv.1, .inl hv.2⟩
  · obtain ⟨h5, e5, -, o5⟩ := Owned.freeStrings (b := []) h4 h3
    exact ⟨.inr ⟨l, new, h5, h1, by rw [h2]; rfl, h3, by simpa using h4, e5, o5.eq⟩, fun _ => ⟨l, h2⟩⟩

/-- The answer of the callback as the values see it. -/
def seen (a : Answer) : Res (Option (Bytes × Nat)) :=
  match a.status with
  | some x => .err x
  | none => .ok (a.response.map fun raw => ((textOf raw).getD [], a.len))

/-- C141 for the whole verification, whatever the callback answers as long as its text is terminated: the callback's block and, on
failure, the relays are released exactly once. -/
theorem C141_verify_partial {A : Alloc} (hA : Fresh A) (http : Bytes → Answer) (identifier expected : Bytes) (want : Bool) (h : Heap)
    (ht : ∀ url raw, (http url).response = some raw → 0 ∈ raw) :
    ∃ st p n h', verify A http identifier expected want h = some ((st, p, n), h') ∧
      Outcome A h.mem (Nostr.Nip05.verify (fun url => seen (http url)) identifier expected want) st p n h' := by
  unfold verify Nostr.Nip05.verify
  have nu1 : Nostr.Nip05.parse identifier 65 257 ≠ .ub := by
    unfold Nostr.Nip05.parse
    repeat' split
    all_goals simp
  have nu2 : ∀ a b, buildUrl a b 512 ≠ .ub := by
    intro a b
    unfold buildUrl
    repeat' split
    · simp
    · simp
    · rename_i h1 h2 h3
      simp only [List.length_append, List.length_cons, List.length_nil] at h3
      omega
    · simp
  cases hp : Nostr.Nip05.parse identifier 65 257 with
  | ub => exact absurd hp nu1
  | err x => exact ⟨_, _, _, h, rfl, .inl ⟨x, rfl, rfl, rfl, rfl, .inl rfl⟩⟩
  | ok nd =>
  simp only [Res.bind_ok]
  cases hb : buildUrl nd.1 nd.2 512 with
  | ub => exact absurd hb (nu2 _ _)
  | err x => exact ⟨_, _, _, h, rfl, .inl ⟨x, rfl, rfl, rfl, rfl, .inl rfl⟩⟩
  | ok url =>
  simp only [Res.bind_ok]
  have ht' := ht url
  generalize http url = a at ht' ⊢
  obtain ⟨status, response, len⟩ := a
  -- the response
  have hfetch : (∃ g, fetch A ⟨status, response, len⟩ h = some (none, g) ∧ g.mem = h.mem ∧ (response = none ∨ Refused A h.mem)) ∨
      ∃ q g raw, fetch A ⟨status, response, len⟩ h = some (some q, g) ∧ response = some raw ∧ g.mem q = some (.str raw) ∧ Owned h.mem g.mem [q] := by
    unfold fetch
    cases response with
    | none => exact .inl ⟨h, rfl, rfl, .inl rfl⟩
    | some raw =>
      rcases allocP hA (Owned.nil h.mem) (.str raw) with ⟨g, e1, m1, f1⟩ | ⟨q, g, e1, b1, o1, -⟩
      · exact .inl ⟨g, e1, m1, .inr f1⟩
      · exact .inr ⟨q, g, raw, e1, rfl, b1, o1⟩
  simp only [M.bind]
  rcases hfetch with ⟨g, e1, m1, f1⟩ | ⟨q, g, raw, e1, hr, b1, o1⟩
  · simp only [e1, Option.bind_some]
    cases status with
    | some x => exact ⟨_, _, _, g, rfl, .inl ⟨x, rfl, rfl, rfl, m1, .inl rfl⟩⟩
    | none =>
      refine ⟨_, _, _, g, rfl, .inl ⟨.notFound, rfl, rfl, rfl, m1, ?_⟩⟩
      rcases f1 with rfl | f1
      · exact .inl rfl
      · exact .inr ⟨f1, .inr rfl⟩
  · subst hr
    obtain ⟨t, htx⟩ : ∃ t, textOf raw = some t := ⟨_, if_pos (ht' raw rfl)⟩
    simp only [e1, Option.bind_some]
    obtain ⟨g2, e2, o2, -⟩ := freeP (p := some q) (b := []) o1
    cases status with
    | some x => exact ⟨_, _, _, g2, by simp only [M.bind, e2, Option.bind_some, M.pure], .inl ⟨x, rfl, rfl, rfl, o2.eq, .inl rfl⟩⟩
    | none =>
      simp only [seen, Option.map_some, htx, Option.getD_some, Res.bind_ok]
      by_cases h1 : len = 0
      · rw [if_pos h1, if_pos h1]
        exact ⟨_, _, _, g2, by simp only [M.bind, e2, Option.bind_some, M.pure], .inl ⟨_, rfl, rfl, rfl, o2.eq, .inl rfl⟩⟩
      rw [if_neg h1, if_neg h1]
      by_cases h2 : len > 1048576
      · rw [if_pos h2, if_pos h2]
        exact ⟨_, _, _, g2, by simp only [M.bind, e2, Option.bind_some, M.pure], .inl ⟨_, rfl, rfl, rfl, o2.eq, .inl rfl⟩⟩
      rw [if_neg h2, if_neg h2]
      have eld : loadStr q g = some (raw, g) := by unfold loadStr; rw [b1]
      simp only [M.bind, eld, Option.bind_some, htx]
      obtain ⟨r, g3, e3, hx⟩ := parseResponse_ok hA t nd.1 want o1
      simp only [M.bind, e3, Option.bind_some]
      rcases hx with ⟨x, hr1, hr2, m3, hv⟩ | ⟨l, new, hr1, hv, hs, o3, -⟩
      · obtain ⟨g4, e4, o4, -⟩ := freeP (p := some q) (b := []) (h := g3) (h0 := h.mem) (by rw [m3]; exact o1)
        refine ⟨_, _, _, g4, by simp only [M.bind, e4, Option.bind_some, hr1, M.pure], .inl ⟨x, rfl, rfl, rfl, o4.eq, ?_⟩⟩
        rcases hv with hv | hv
        · left; rw [hv]; rfl
        · exact .inr ⟨hv.1, .inl hv.2⟩
      · obtain ⟨g4, e4, o4, k4⟩ := freeP (p := some q) (b := new) (h := g3) (h0 := h.mem)
          (o3.perm (by simpa using List.perm_middle (l₁ := new) (l₂ := [])))
        have hs4 : StrArr g4.mem r.2.2.1 r.2.2.2 l new := hs.mono k4
        obtain ⟨g5, e5, -, o5⟩ := Owned.freeStrings (b := []) (by simpa using o4) hs4
        simp only [e4, Option.bind_some, hr1, hv, Res.bind_ok]
        by_cases h3 : expected.length ≠ 64
        · rw [if_pos (.inl h3), if_pos h3]
          exact ⟨_, _, _, g5, by simp only [M.bind, e5, Option.bind_some, M.pure], .inl ⟨_, rfl, rfl, rfl, o5.eq, .inl rfl⟩⟩
        · by_cases h4 : Hex.ctMemcmp r.2.1 (lower expected) ≠ 0
          · rw [if_pos (.inr h4), if_neg h3, if_pos h4]
            exact ⟨_, _, _, g5, by simp only [M.bind, e5, Option.bind_some, M.pure], .inl ⟨_, rfl, rfl, rfl, o5.eq, .inl rfl⟩⟩
          · rw [if_neg (by simp only [not_or]; exact ⟨h3, h4⟩), if_neg h3, if_neg h4]
            exact ⟨_, _, _, g4, rfl, .inr ⟨l, new, g5, rfl, rfl, hs4, o4, e5, o5.eq⟩⟩

/-- A response naming one key and one relay, terminated. -/
def doc : Bytes :=
  c!"{\"names\":{\"a\":\"" ++ List.replicate 64 0x30 ++ c!"\"},\"relays\":{\"" ++ List.replicate 64 0x30 ++ c!"\":[\"wss://r.c\"]}}" ++ [0]

/-- What is left of a look-up where request `k` is refused: success, relays, requests made and blocks allocated. -/
def sample (k : Nat) (expected : Bytes) : Option (Bool × Nat × Nat × List Nat) :=
  (verify (Filter.Props.failAt k) (fun _ => ⟨none, some doc, 200⟩) c!"a@b.c" expected true ⟨fun _ => none, 0⟩).map fun x =>
    (x.1.1.isNone, x.1.2.2, x.2.tick, (List.range 10).filter fun i => (x.2.mem (100 + i)).isSome)

/-- The array and the relay stay with the caller; a refused copy or another key leaves nothing. -/
example : sample 99 (List.replicate 64 0x30) = some (true, 1, 3, [1, 2]) ∧ sample 2 (List.replicate 64 0x30) = some (false, 0, 3, []) ∧
    sample 99 (List.replicate 64 0x31) = some (false, 0, 3, []) := by decide +kernel

example : 0 ∈ doc := by decide

/-! ## C142 -/

/-- C142 fails: a callback that reports the length of its answer and puts no NUL behind it makes verification read past the
answer, whatever the answer is. -/
theorem C142_unterminated_refuted (raw expected : Bytes) (want : Bool) (identifier name domain : Bytes) (h0 : 0 ∉ raw) (h1 : 0 < raw.length)
    (h2 : raw.length ≤ 1048576) (hi : Nostr.Nip05.parse identifier 65 257 = .ok (name, domain)) :
    verify (Filter.Props.failAt 99) (fun _ => ⟨none, some raw, raw.length⟩) identifier expected want ⟨fun _ => none, 0⟩ = none := by
  obtain ⟨hn, hd⟩ : name.length ≤ 64 ∧ domain.length ≤ 256 := by
    unfold Nostr.Nip05.parse at hi
    repeat' split at hi
    all_goals first
      | simp at hi; done
      | skip
    rename_i h3
    simp only [Res.ok.injEq, Prod.mk.injEq] at hi
    obtain ⟨rfl, rfl⟩ := hi
    simp only [lower, List.length_map]
    omega
  obtain ⟨url, hb⟩ : ∃ url, buildUrl name domain 512 = .ok url := by
    refine ⟨c!"https://" ++ domain ++ c!"/.well-known/nostr.json?name=" ++ name, ?_⟩
    unfold buildUrl
    rw [if_neg (by omega), if_neg (by omega), if_neg]
    simp only [List.length_append, List.length_cons, List.length_nil]
    omega
  unfold verify
  simp only [hi, Res.bind_ok, hb, fetch]
  have e : alloc (Filter.Props.failAt 99) (.str raw) ⟨fun _ => none, 0⟩ = some (some 100, ⟨upd (fun _ => none) 100 (some (.str raw)), 1⟩) := rfl
  have e2 : loadStr 100 ⟨upd (fun _ => none) 100 (some (.str raw)), 1⟩ = some (raw, ⟨upd (fun _ => none) 100 (some (.str raw)), 1⟩) := by
    simp [loadStr, upd]
  simp only [M.bind, e, Option.bind_some]
  rw [if_neg (by omega), if_neg (by omega)]
  simp only [M.bind, e2, Option.bind_some, textOf, if_neg h0]

example : Nostr.Nip05.parse c!"a@b.c" 65 257 = .ok (c!"a", c!"b.c") ∧ (0 : UInt8) ∉ (c!"{}" : Bytes) := by decide +kernel

/-- C142 (part): with a NUL directly behind the reported length, verification is the one that is given the reported bytes:
what follows in the block does not matter. -/
theorem C142_terminated_partial {A : Alloc} (hA : Fresh A) (text rest : Bytes → Bytes) (h0 : ∀ url, 0 ∉ text url) (identifier expected : Bytes)
    (want : Bool) (h : Heap) :
    ∃ st p n h', verify A (fun url => ⟨none, some (text url ++ 0 :: rest url), (text url).length⟩) identifier expected want h = some ((st, p, n), h') ∧
      Outcome A h.mem (Nostr.Nip05.verify (fun url => .ok (some (text url, (text url).length))) identifier expected want) st p n h' := by
  have hs : (fun url => seen ⟨none, some (text url ++ 0 :: rest url), (text url).length⟩) = fun url => .ok (some (text url, (text url).length)) := by
    funext url
    have : (text url ++ 0 :: rest url).takeWhile (· != 0) = text url := by
      rw [List.takeWhile_append_of_pos]
      · simp
      · intro c hc
        simp only [bne_iff_ne, ne_eq]
        rintro rfl
        exact h0 url hc
    simp [seen, textOf, this]
  rw [← hs]
  exact C141_verify_partial hA _ identifier expected want h (fun url raw hr => by
    simp only [Option.some.injEq] at hr
    subst hr
    simp)

example : (0 : UInt8) ∉ (c!"{\"names\":{}}" : Bytes) := by decide

end Nostr.Own.Nip05.Props
