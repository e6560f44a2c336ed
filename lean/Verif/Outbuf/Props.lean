import Verif.Outbuf.Model
import Verif.Outbuf.Spec
import Verif.Nip25.Props
import Verif.Nip10.Props
import Verif.Nip05.Props

/-! # Property theorems: C196 -/

namespace Nostr.Outbuf.Props
open Nostr Nostr.Event Nostr.Outbuf Nostr.Outbuf.Spec

/-! ## Writing into a buffer -/

theorem set_last (a : Bytes) (b : UInt8) (c : UInt8) : (a ++ [b]).set a.length c = a ++ [c] := by
  induction a with
  | nil => rfl
  | cons x a ih => simp [ih]

/-- `strncpy` followed by the terminating zero. -/
theorem copied {m s : Bytes} (hm : 0 < m.length) :
    ∃ a, strncpy m s (m.length - 1) = .ok a ∧
      put a (m.length - 1) 0 = .ok (s.take (m.length - 1) ++ List.replicate (m.length - (s.take (m.length - 1)).length) 0) := by
  unfold strncpy
  rw [if_pos (by omega)]
  refine ⟨_, rfl, ?_⟩
  have hd : ∃ x, m.drop (m.length - 1) = [x] := by
    have : (m.drop (m.length - 1)).length = 1 := by rw [List.length_drop]; omega
    match h : m.drop (m.length - 1), this with
    | [x], _ => exact ⟨x, rfl⟩
  obtain ⟨x, hx⟩ := hd
  rw [hx]
  have hl : (s.take (m.length - 1) ++ List.replicate (m.length - 1 - s.length) 0).length = m.length - 1 := by
    simp only [List.length_append, List.length_take, List.length_replicate]; omega
  unfold put
  rw [if_pos (by rw [List.length_append, hl]; simp)]
  have h := set_last (s.take (m.length - 1) ++ List.replicate (m.length - 1 - s.length) 0) x 0
  rw [hl] at h
  rw [h, List.append_assoc]
  congr 2
  have : m.length - (s.take (m.length - 1)).length = (m.length - 1 - s.length) + 1 := by
    rw [List.length_take]; omega
  rw [this, List.replicate_succ']

theorem reads_take {s : Bytes} {n k : Nat} (hs : CText s) (hk : 0 < k) :
    Reads (some (s.take n ++ List.replicate k 0)) (s.take n) := by
  intro m hm _
  cases hm
  refine ⟨fun h => hs (List.mem_of_mem_take h), ?_⟩
  match k, hk with
  | k + 1, _ => exact ⟨List.replicate k 0, by rw [List.replicate_succ]⟩

theorem got_of {o : Bytes} {s : Bytes} (hs : CText s) (hm : 0 < o.length) :
    Got (some o) (some (s.take (o.length - 1) ++ List.replicate (o.length - (s.take (o.length - 1)).length) 0)) s := by
  have hl : (s.take (o.length - 1)).length < o.length := by rw [List.length_take]; omega
  have hr := reads_take (n := o.length - 1) (k := o.length - (s.take (o.length - 1)).length) hs (by omega)
  refine ⟨?_, hr, ?_⟩
  · simp only [SameRoom, Option.map_some, List.length_append, List.length_replicate]
    congr 1; omega
  · intro h
    have := h o rfl
    have e : s.take (o.length - 1) = s := List.take_of_length_le (by omega)
    rw [e] at hr ⊢
    exact hr

theorem got_none {s : Bytes} : Got none none s := ⟨rfl, (by intro m h; cases h), (by intro _ m h; cases h)⟩

theorem got_empty {s : Bytes} : Got (some []) (some []) s :=
  ⟨rfl, (by intro m h hn; cases h; exact absurd rfl hn), (by intro _ m h hn; cases h; exact absurd rfl hn)⟩

theorem ctext_nil : CText [] := by simp [CText]

/-- Setting the first byte to zero leaves the empty text. -/
theorem got_clear {x : UInt8} {m : Bytes} : Got (some (x :: m)) (some (0 :: m)) [] := by
  have : Reads (some (0 :: m)) [] := by
    intro a ha _; cases ha; exact ⟨by simp, m, rfl⟩
  exact ⟨rfl, by simpa [cut] using this, fun _ => this⟩

/-- `copy_str_safe` hands out the text, or the empty text for NULL. -/
theorem copy_got {b : Buf} {src : Option Bytes} (hs : ∀ s, src = some s → CText s) :
    ∃ b', copyStrSafe b src = .ok b' ∧ Got b b' (src.getD []) := by
  match b with
  | none => exact ⟨none, rfl, got_none⟩
  | some [] => exact ⟨some [], rfl, got_empty⟩
  | some (x :: m) =>
      cases src with
      | none => exact ⟨some (0 :: m), rfl, got_clear⟩
      | some s =>
          obtain ⟨a, h1, h2⟩ := copied (m := x :: m) (s := s) (by simp)
          refine ⟨_, ?_, got_of (o := x :: m) (hs s rfl) (by simp)⟩
          unfold copyStrSafe
          simp only []
          rw [if_neg (by simp)]
          simp only [h1, Res.bind_ok, h2, Option.getD_some]

theorem got_room {a b c : Option Bytes} {s : Bytes} (h : SameRoom a b) (g : Got b c s) : Got a c s := by
  have hl : (b.getD []).length = (a.getD []).length := by
    cases a <;> cases b <;> simp_all [SameRoom]
  refine ⟨g.1.trans h, by have := g.2.1; rwa [cut, hl] at this, fun hr => g.2.2 ?_⟩
  intro m hm
  cases a with
  | none => rw [hm] at h; cases h
  | some x =>
      rw [hm] at h
      have := hr x rfl
      simp only [SameRoom, Option.map_some, Option.some.injEq] at h
      omega

/-! ## What the tag scans find -/

theorem last_cons {α β : Type} (f : α → Option β) (x : α) (xs : List α) (d : Option β) :
    ((((x :: xs).filterMap f).getLast?).or d) = (((xs.filterMap f).getLast?).or ((f x).or d)) := by
  cases h : f x with
  | none => simp [List.filterMap_cons, h]
  | some y =>
      rw [List.filterMap_cons, h, List.getLast?_cons]
      cases (xs.filterMap f).getLast? <;> rfl

theorem scan25 (tags : List (List Bytes)) (f : Nip25.Found) :
    (tags.foldl Nip25.scanTag f).id = (lastValue (c!"e") tags).or f.id ∧
    (tags.foldl Nip25.scanTag f).pubkey = (lastValue (c!"p") tags).or f.pubkey ∧
    (tags.foldl Nip25.scanTag f).kind =
      (((tags.filterMap (valueOf (c!"k"))).filterMap Nip25.kindOf).getLast?).getD f.kind := by
  induction tags generalizing f with
  | nil => exact ⟨rfl, rfl, rfl⟩
  | cons t ts ih =>
      rw [List.foldl_cons]
      obtain ⟨h1, h2, h3⟩ := ih (Nip25.scanTag f t)
      unfold lastValue at h1 h2 ⊢
      rw [h1, h2, h3, last_cons, last_cons]
      match t with
      | [] => exact ⟨rfl, rfl, rfl⟩
      | [_] => exact ⟨rfl, rfl, rfl⟩
      | n :: v :: rest =>
          by_cases he : n = c!"e"
          · subst he; exact ⟨rfl, rfl, rfl⟩
          by_cases hp : n = c!"p"
          · subst hp; exact ⟨rfl, rfl, rfl⟩
          by_cases hk : n = c!"k"
          · subst hk
            refine ⟨rfl, rfl, ?_⟩
            simp only [Nip25.scanTag, he, hp, if_false, if_true, List.filterMap_cons, valueOf]
            cases hv : Nip25.kindOf v with
            | none => simp
            | some y =>
                rw [List.getLast?_cons]
                cases ((ts.filterMap (valueOf (c!"k"))).filterMap Nip25.kindOf).getLast? <;> rfl
          · simp [Nip25.scanTag, valueOf, he, hp, hk]

theorem scan18 (tags : List (List Bytes)) (f : Nip18.Found) :
    (tags.foldl Nip18.scanTag f).id = (lastValue (c!"e") tags).or f.id ∧
    (tags.foldl Nip18.scanTag f).pubkey = (lastValue (c!"p") tags).or f.pubkey ∧
    (tags.foldl Nip18.scanTag f).relay = (lastHint tags).or f.relay ∧
    (tags.foldl Nip18.scanTag f).kind =
      (((tags.filterMap (valueOf (c!"k"))).filterMap Nip18.kindOf).getLast?).getD f.kind := by
  induction tags generalizing f with
  | nil => exact ⟨rfl, rfl, rfl, rfl⟩
  | cons t ts ih =>
      rw [List.foldl_cons]
      obtain ⟨h1, h2, h3, h4⟩ := ih (Nip18.scanTag f t)
      unfold lastValue lastHint at *
      rw [h1, h2, h3, h4, last_cons, last_cons, last_cons]
      match t with
      | [] => exact ⟨rfl, rfl, rfl, rfl⟩
      | [_] => exact ⟨rfl, rfl, rfl, rfl⟩
      | n :: v :: rest =>
          by_cases he : n = c!"e"
          · subst he
            refine ⟨rfl, rfl, ?_, rfl⟩
            cases rest <;> rfl
          by_cases hp : n = c!"p"
          · subst hp
            refine ⟨rfl, rfl, ?_, rfl⟩
            cases rest <;> rfl
          by_cases hk : n = c!"k"
          · subst hk
            refine ⟨rfl, rfl, ?_, ?_⟩
            · cases rest <;> rfl
            simp only [Nip18.scanTag, he, hp, if_false, if_true, List.filterMap_cons, valueOf]
            cases hv : Nip18.kindOf v with
            | none => simp
            | some y =>
                rw [List.getLast?_cons]
                cases ((ts.filterMap (valueOf (c!"k"))).filterMap Nip18.kindOf).getLast? <;> rfl
          · cases rest <;> simp [Nip18.scanTag, valueOf, hintOf, he, hp, hk]

theorem lastValue_ctext {name : Bytes} {tags : List (List Bytes)} (ht : ∀ t ∈ tags, ∀ v ∈ t, CText v) {s : Bytes}
    (h : lastValue name tags = some s) : CText s := by
  unfold lastValue at h
  obtain ⟨t, hm, hv⟩ := List.mem_filterMap.1 (List.mem_of_getLast? h)
  match t, hm, hv with
  | n :: v :: rest, hm, hv =>
      simp only [valueOf] at hv
      split at hv
      · cases hv; exact ht _ hm _ (by simp)
      · cases hv

theorem lastHint_ctext {tags : List (List Bytes)} (ht : ∀ t ∈ tags, ∀ v ∈ t, CText v) {s : Bytes}
    (h : lastHint tags = some s) : CText s := by
  unfold lastHint at h
  obtain ⟨t, hm, hv⟩ := List.mem_filterMap.1 (List.mem_of_getLast? h)
  match t, hm, hv with
  | n :: _ :: v :: rest, hm, hv =>
      simp only [hintOf] at hv
      split at hv
      · cases hv; exact ht _ hm _ (by simp)
      · cases hv

/-- The last `k` tag decides when it is a number of the right size. -/
theorem last_kind {f : Bytes → Option Nat} {tags : List (List Bytes)} {d n : Nat} {v : Bytes} (hf : f v = some n)
    (h : lastValue (c!"k") tags = some v) :
    (((tags.filterMap (valueOf (c!"k"))).filterMap f).getLast?).getD d = n := by
  unfold lastValue at h
  obtain ⟨l, hl⟩ := List.getLast?_eq_some_iff.1 h
  rw [hl, List.filterMap_append]
  simp [hf]

theorem no_kind {f : Bytes → Option Nat} {tags : List (List Bytes)} {d : Nat}
    (h : lastValue (c!"k") tags = none) :
    (((tags.filterMap (valueOf (c!"k"))).filterMap f).getLast?).getD d = d := by
  unfold lastValue at h
  rw [List.getLast?_eq_none_iff.1 h]
  rfl

/-! ## Reactions -/

/-- **C196** (reactions): reading a reaction fills exactly the caller's memory. It reports success exactly if some `e` tag
has a value, and the buffers then read the content, the value of the last `e` tag and that of the last `p` tag, whole if
they fit and cut otherwise. An event of another kind changes nothing. Missing: texts that do not fit are cut without an
error (`C196_cut_refuted`), and `NOT_FOUND` leaves texts behind (`C196_left_refuted`). -/
theorem C196_reaction_partial (e : Event) (o : Reaction) (hc : ∀ s, e.content = some s → CText s)
    (ht : ∀ t ∈ e.tags, ∀ v ∈ t, CText v) :
    ∃ code o', reactionParse e o = .ok (code, o') ∧
      (e.kind ≠ 7 → code = some .invalidEvent ∧ o' = o) ∧
      (e.kind = 7 →
        (code = none ∧ lastValue (c!"e") e.tags ≠ none ∨ code = some .notFound ∧ lastValue (c!"e") e.tags = none) ∧
        Got o.content o'.content (e.content.getD []) ∧
        Got o.id o'.id ((lastValue (c!"e") e.tags).getD []) ∧
        Got o.pubkey o'.pubkey ((lastValue (c!"p") e.tags).getD []) ∧
        (o'.kind = none ↔ o.kind = none) ∧
        ∀ k, o'.kind = some k → (lastValue (c!"k") e.tags = none → k = 0) ∧
          ∀ n ≤ 65535, lastValue (c!"k") e.tags = some (Num.decNat n) → k = n) := by
  unfold reactionParse
  by_cases hk : e.kind = 7
  · rw [if_neg (by simpa using hk)]
    obtain ⟨h1, h2, h3⟩ := scan25 e.tags ⟨none, none, 0⟩
    rw [Option.or_none] at h1 h2
    obtain ⟨b1, c1, g1⟩ := copy_got (b := o.content) hc
    obtain ⟨b2, c2, g2⟩ := copy_got (b := o.id) (src := none) (by simp)
    obtain ⟨b3, c3, g3⟩ := copy_got (b := o.pubkey) (src := none) (by simp)
    obtain ⟨b4, c4, g4⟩ := copy_got (b := b2) (src := lastValue (c!"e") e.tags) (fun s h => lastValue_ctext ht h)
    obtain ⟨b5, c5, g5⟩ := copy_got (b := b3) (src := lastValue (c!"p") e.tags) (fun s h => lastValue_ctext ht h)
    simp only [c1, c2, c3, Res.bind_ok, h1, h2, c4, c5]
    refine ⟨_, _, rfl, fun h => absurd hk h, fun _ => ⟨?_, g1, got_room g2.1 g4, got_room g3.1 g5, by simp, ?_⟩⟩
    · cases lastValue (c!"e") e.tags <;> simp
    · intro k hk'
      cases ho : o.kind with
      | none => rw [ho] at hk'; cases hk'
      | some x =>
          rw [ho] at hk'
          simp only [Option.map_some, Option.some.injEq] at hk'
          rw [h3] at hk'
          refine ⟨fun hn => by rw [no_kind hn] at hk'; exact hk'.symm, fun n hn hv => ?_⟩
          rw [last_kind (Nip25.Props.kindOf_dec hn) hv] at hk'
          exact hk'.symm
  · rw [if_pos (by simpa using hk)]
    exact ⟨_, _, rfl, fun _ => ⟨rfl, rfl⟩, fun h => absurd h hk⟩

/-! ## Reposts -/

/-- **C196** (reposts): as for reactions; the relay hint is the last one given by an `e` tag. -/
theorem C196_repost_partial (e : Event) (o : Repost) (ht : ∀ t ∈ e.tags, ∀ v ∈ t, CText v) :
    ∃ code o', repostParse e o = .ok (code, o') ∧
      (e.kind ≠ 6 ∧ e.kind ≠ 16 → code = some .invalidEvent ∧ o' = o) ∧
      (e.kind = 6 ∨ e.kind = 16 →
        (code = none ∧ lastValue (c!"e") e.tags ≠ none ∨ code = some .notFound ∧ lastValue (c!"e") e.tags = none) ∧
        Got o.id o'.id ((lastValue (c!"e") e.tags).getD []) ∧
        Got o.pubkey o'.pubkey ((lastValue (c!"p") e.tags).getD []) ∧
        Got o.relay o'.relay ((lastHint e.tags).getD []) ∧
        (o'.kind = none ↔ o.kind = none) ∧
        ∀ k, o'.kind = some k → (lastValue (c!"k") e.tags = none → k = if e.kind = 6 then 1 else 0) ∧
          ∀ n ≤ 65535, lastValue (c!"k") e.tags = some (Num.decNat n) → k = n) := by
  unfold repostParse
  by_cases hk : e.kind ≠ 6 ∧ e.kind ≠ 16
  · rw [if_pos hk]
    exact ⟨_, _, rfl, fun _ => ⟨rfl, rfl⟩, fun h => absurd h (by omega)⟩
  · rw [if_neg hk]
    obtain ⟨h1, h2, h3, h4⟩ := scan18 e.tags ⟨none, none, none, if e.kind = 6 then 1 else 0⟩
    rw [Option.or_none] at h1 h2 h3
    obtain ⟨b1, c1, g1⟩ := copy_got (b := o.id) (src := lastValue (c!"e") e.tags) (fun s h => lastValue_ctext ht h)
    obtain ⟨b2, c2, g2⟩ := copy_got (b := o.pubkey) (src := lastValue (c!"p") e.tags) (fun s h => lastValue_ctext ht h)
    obtain ⟨b3, c3, g3⟩ := copy_got (b := o.relay) (src := lastHint e.tags) (fun s h => lastHint_ctext ht h)
    simp only [h1, h2, h3, c1, c2, c3, Res.bind_ok]
    refine ⟨_, _, rfl, fun h => absurd h hk, fun _ => ⟨?_, g1, g2, g3, by simp, ?_⟩⟩
    · cases lastValue (c!"e") e.tags <;> simp
    · intro k hk'
      cases ho : o.kind with
      | none => rw [ho] at hk'; cases hk'
      | some x =>
          rw [ho] at hk'
          simp only [Option.map_some, Option.some.injEq] at hk'
          rw [h4] at hk'
          refine ⟨fun hn => by rw [no_kind hn] at hk'; exact hk'.symm, fun n hn hv => ?_⟩
          rw [last_kind (Nip18.Props.kindOf_dec hn) hv] at hk'
          exact hk'.symm

/-! ## Threads -/

theorem clear_got {b : Buf} : ∃ b', clear b = .ok b' ∧ Got b b' [] := by
  match b with
  | none => exact ⟨none, rfl, got_none⟩
  | some [] => exact ⟨some [], rfl, got_empty⟩
  | some (x :: m) => exact ⟨some (0 :: m), rfl, got_clear⟩

theorem put0 {m : Bytes} (h : 0 < m.length) : ∃ m', put m 0 0 = .ok m' ∧ m'.length = m.length ∧ Got (some m) (some m') [] := by
  match m with
  | x :: m => exact ⟨0 :: m, rfl, rfl, got_clear⟩

theorem ctext_take {s : Bytes} {n : Nat} (h : CText s) : CText (s.take n) := fun hm => h (List.mem_of_mem_take hm)

theorem copy_info {i : Nip10.Info} {id : Bytes} {relay old : Buf} (h1 : CText i.id) (h2 : CText i.relay) (hl : 0 < id.length)
    (hg : Got old relay []) :
    ∃ a b, copyIdAndRelay i id relay = .ok (a, b) ∧ Got (some id) (some a) i.id ∧ Got old b i.relay := by
  obtain ⟨a, c1, c2⟩ := copied (m := id) (s := i.id) hl
  have ga := got_of (o := id) h1 hl
  unfold copyIdAndRelay
  simp only [c1, Res.bind_ok, c2]
  match relay, hg with
  | none, hg =>
      refine ⟨_, none, rfl, ga, ?_⟩
      have : old = none := by
        cases old with
        | none => rfl
        | some x => cases hg.1
      subst this; exact got_none
  | some m, hg =>
      by_cases hr : m.length > 0 ∧ i.relay ≠ []
      · obtain ⟨b, d1, d2⟩ := copied (m := m) (s := i.relay) hr.1
        simp only [if_pos hr, d1, Res.bind_ok, d2]
        exact ⟨_, _, rfl, ga, got_room hg.1 (got_of h2 hr.1)⟩
      · simp only [if_neg hr]
        refine ⟨_, _, rfl, ga, ?_⟩
        by_cases hm : m = []
        · subst hm
          exact got_room hg.1 got_empty
        · have : i.relay = [] := by
            by_cases h : i.relay = []
            · exact h
            · exact absurd ⟨List.length_pos_iff.2 hm, h⟩ hr
          rw [this]; exact hg

theorem parse_ctext {t : List Bytes} {i : Nip10.Info} (ht : ∀ v ∈ t, CText v) (h : Nip10.parseE t = some i) :
    ∃ id rest, t = c!"e" :: id :: rest ∧ i.id = id.take 64 ∧ i.relay = (rest.headD []).take 255 ∧ CText i.id ∧ CText i.relay := by
  match t, ht, h with
  | n :: id :: rest, ht, h =>
      simp only [Nip10.parseE] at h
      split at h
      · rename_i hn
        cases h
        refine ⟨id, rest, by rw [hn], rfl, ?_, ctext_take (ht _ (by simp)), ctext_take ?_⟩
        · cases rest <;> rfl
        · cases rest with
          | nil => exact ctext_nil
          | cons r rs => exact ht _ (by simp)
      · cases h

theorem pick_mem {is : List Nip10.Info} {m : Bytes} {last : Bool} {i : Nip10.Info} (h : pick is m last = some i) : i ∈ is := by
  unfold pick at h
  cases hf : is.find? (fun x => x.marker == m) with
  | some x => rw [hf] at h; cases h; exact List.mem_of_find?_eq_some hf
  | none =>
      rw [hf, Option.none_or] at h
      cases last
      · exact List.mem_of_head? (by simpa using h)
      · exact List.mem_of_getLast? (by simpa using h)

theorem pick_none {is : List Nip10.Info} {m : Bytes} {last : Bool} : pick is m last = none ↔ is = [] := by
  unfold pick
  constructor
  · intro h
    rw [Option.or_eq_none_iff] at h
    cases last
    · simpa using h.2
    · simpa using h.2
  · intro h; subst h; cases last <;> rfl

theorem find_got (e : Event) (marker : Bytes) (last : Bool) (o : Place) (ht : ∀ t ∈ e.tags, ∀ v ∈ t, CText v) :
    ∃ code o', find e marker last o = .ok (code, o') ∧
      ((∀ m, o.id = some m → m.length < 65) → code = some .invalidParam ∧ o' = o) ∧
      (∀ m, o.id = some m → 65 ≤ m.length →
        (code = some .notFound ∧ (∀ t ∈ e.tags, ∀ id rest, t ≠ c!"e" :: id :: rest) ∧ Got o.id o'.id [] ∧ Got o.relay o'.relay []) ∨
        (code = none ∧ ∃ id rest, c!"e" :: id :: rest ∈ e.tags ∧ Got o.id o'.id (id.take 64) ∧
          Got o.relay o'.relay ((rest.headD []).take 255))) := by
  unfold find
  cases hid : o.id with
  | none => exact ⟨_, _, rfl, fun _ => ⟨rfl, rfl⟩, (by intro m h; cases h)⟩
  | some id =>
      simp only []
      by_cases hl : id.length < 65
      · rw [if_pos hl]
        refine ⟨_, _, rfl, fun _ => ⟨rfl, rfl⟩, ?_⟩
        intro m h hm; cases h; omega
      · rw [if_neg hl]
        obtain ⟨id', p1, p2, g1⟩ := put0 (m := id) (by omega)
        obtain ⟨r', q1, g2⟩ := clear_got (b := o.relay)
        simp only [p1, q1, Res.bind_ok]
        cases hp : pick (Nip10.collect e.tags) marker last with
        | none =>
            refine ⟨_, _, rfl, fun h => absurd (h id rfl) hl, ?_⟩
            intro m hm _
            cases hm
            refine Or.inl ⟨rfl, ?_, g1, g2⟩
            intro t htm id rest he
            have hn := pick_none.1 hp
            unfold Nip10.collect at hn
            rw [List.filterMap_eq_nil_iff] at hn
            have := hn t htm
            rw [he] at this
            simp [Nip10.parseE] at this
        | some i =>
            have hm := pick_mem hp
            unfold Nip10.collect at hm
            obtain ⟨t, htm, hte⟩ := List.mem_filterMap.1 hm
            obtain ⟨tid, rest, e1, e2, e3, e4, e5⟩ := parse_ctext (ht t htm) hte
            obtain ⟨a, b, k1, k2, k3⟩ := copy_info (id := id') e4 e5 (by omega) g2
            simp only [k1, Res.bind_ok]
            refine ⟨_, _, rfl, fun h => absurd (h id rfl) hl, ?_⟩
            intro m hm _
            cases hm
            refine Or.inr ⟨rfl, tid, rest, by rw [← e1]; exact htm, ?_, ?_⟩
            · rw [← e2]; exact got_room g1.1 k2
            · rw [← e3]; exact k3

/-- **C196** (threads): the lookups of root and reply fill exactly the caller's memory. Success means that some `e` tag's
value and relay hint are in the buffers, whole if they fit and are not longer than 64 and 255 bytes; without any `e` tag the
buffers read the empty text, and with an id buffer below 65 bytes nothing is changed. Which tag it is, is C52. Missing:
longer texts are cut without an error (`C196_cut_refuted`). -/
theorem C196_thread_partial (e : Event) (o : Place) (ht : ∀ t ∈ e.tags, ∀ v ∈ t, CText v) (reply : Bool) :
    ∃ code o', (if reply then replyId e o else rootId e o) = .ok (code, o') ∧
      ((∀ m, o.id = some m → m.length < 65) → code = some .invalidParam ∧ o' = o) ∧
      (∀ m, o.id = some m → 65 ≤ m.length →
        (code = some .notFound ∧ (∀ t ∈ e.tags, ∀ id rest, t ≠ c!"e" :: id :: rest) ∧ Got o.id o'.id [] ∧ Got o.relay o'.relay []) ∨
        (code = none ∧ ∃ id rest, c!"e" :: id :: rest ∈ e.tags ∧ Got o.id o'.id (id.take 64) ∧
          Got o.relay o'.relay ((rest.headD []).take 255))) := by
  cases reply
  · exact find_got e _ false o ht
  · exact find_got e _ true o ht

/-! ## Identifiers -/

theorem lower_length (s : Bytes) : (Nip05.lower s).length = s.length := by simp [Nip05.lower]

theorem lower_ctext {s : Bytes} (h : CText s) : CText (Nip05.lower s) := by
  intro hm
  unfold Nip05.lower at hm
  obtain ⟨c, hc, he⟩ := List.mem_map.1 hm
  unfold Nip05.tolower at he
  split at he
  · rename_i h1
    obtain ⟨h1, h2⟩ := h1
    have a1 := UInt8.le_iff_toNat_le.1 h1
    have a2 := UInt8.le_iff_toNat_le.1 h2
    have := congrArg UInt8.toNat he
    rw [UInt8.toNat_add] at this
    have e1 : (0x41 : UInt8).toNat = 65 := rfl
    have e2 : (0x5a : UInt8).toNat = 90 := rfl
    have e3 : (32 : UInt8).toNat = 32 := rfl
    have e4 : (0 : UInt8).toNat = 0 := rfl
    omega
  · subst he; exact h hc

theorem store_got {m part : Bytes} (hp : CText part) (hl : part.length < m.length) :
    ∃ m', store m part = .ok m' ∧ SameRoom (some m) (some m') ∧ Reads (some m') (Nip05.lower part) := by
  unfold store memcpy
  rw [if_pos (by omega)]
  simp only [Res.bind_ok]
  have hd : ∃ x rest, m.drop part.length = x :: rest := by
    have : 0 < (m.drop part.length).length := by rw [List.length_drop]; omega
    match h : m.drop part.length, this with
    | x :: rest, _ => exact ⟨x, rest, rfl⟩
  obtain ⟨x, rest, hx⟩ := hd
  have hlen : part.length + (rest.length + 1) = m.length := by
    have := congrArg List.length hx
    rw [List.length_drop, List.length_cons] at this
    omega
  rw [hx]
  unfold put
  rw [if_pos (by simp)]
  have hs : (part ++ x :: rest).set part.length 0 = part ++ 0 :: rest := by
    rw [List.set_append_right _ _ (Nat.le_refl _), Nat.sub_self]; rfl
  rw [hs]
  simp only [Res.bind_ok, lowerIn]
  rw [if_pos (by simp), List.take_left, List.drop_left]
  refine ⟨_, rfl, ?_, ?_⟩
  · simp only [SameRoom, Option.map_some, List.length_append, List.length_cons, lower_length]
    congr 1
  · intro a ha _
    cases ha
    exact ⟨lower_ctext hp, rest, rfl⟩

/-- **C196** (identifiers): reading `name@domain` either fails and changes nothing, or puts both parts, in lower case and
whole, into the caller's memory. -/
theorem C196_identifier (s : Bytes) (n d : Buf) (hs : CText s) :
    ∃ code n' d', identifierParse s n d = .ok (code, n', d') ∧
      (code ≠ none → n' = n ∧ d' = d) ∧
      (code = none → ∃ loc dom, s = loc ++ 0x40 :: dom ∧ (0x40 : UInt8) ∉ loc ∧ n ≠ none ∧ d ≠ none ∧ Room n loc ∧ Room d dom ∧
        SameRoom n n' ∧ SameRoom d d' ∧ Reads n' (Nip05.lower loc) ∧ Reads d' (Nip05.lower dom)) := by
  unfold identifierParse
  match n, d with
  | none, d => exact ⟨_, _, _, rfl, fun _ => ⟨rfl, rfl⟩, (by intro h; cases h)⟩
  | some n, none => exact ⟨_, _, _, rfl, fun _ => ⟨rfl, rfl⟩, (by intro h; cases h)⟩
  | some n, some d =>
      have fail : ∃ code n' d', (Res.ok (some Err.invalidParam, some n, some d) : Res (Option Err × Buf × Buf)) = .ok (code, n', d') ∧
          (code ≠ none → n' = some n ∧ d' = some d) ∧
          (code = none → ∃ loc dom, s = loc ++ 0x40 :: dom ∧ (0x40 : UInt8) ∉ loc ∧ some n ≠ none ∧ some d ≠ none ∧
            Room (some n) loc ∧ Room (some d) dom ∧
            SameRoom (some n) n' ∧ SameRoom (some d) d' ∧ Reads n' (Nip05.lower loc) ∧ Reads d' (Nip05.lower dom)) :=
        ⟨_, _, _, rfl, fun _ => ⟨rfl, rfl⟩, (by intro h; cases h)⟩
      simp only []
      split
      · exact fail
      split
      · exact fail
      rename_i c dom hdom
      split
      · exact fail
      split
      · exact fail
      split
      · exact fail
      rename_i hfit
      rw [not_or, Nat.not_le, Nat.not_le] at hfit
      have hsplit := List.takeWhile_append_dropWhile (p := (· != (0x40 : UInt8))) (l := s)
      have hc : c = 0x40 := by
        have := List.head?_dropWhile_not (· != (0x40 : UInt8)) s
        rw [hdom] at this
        simpa using this
      subst hc
      rw [hdom] at hsplit
      have h1 : CText (s.takeWhile (· != (0x40 : UInt8))) := fun hm => hs (by rw [← hsplit]; exact List.mem_append_left _ hm)
      have h2 : CText dom := fun hm => hs (by rw [← hsplit]; exact List.mem_append_right _ (List.mem_cons_of_mem _ hm))
      obtain ⟨n', e1, r1, t1⟩ := store_got h1 hfit.1
      obtain ⟨d', e2, r2, t2⟩ := store_got h2 hfit.2
      simp only [e1, e2, Res.bind_ok]
      refine ⟨_, _, _, rfl, fun h => absurd rfl h, fun _ => ⟨_, _, hsplit.symm, ?_, by simp, by simp, ?_, ?_, r1, r2, t1, t2⟩⟩
      · intro hm
        have := List.all_eq_true.1 (List.all_takeWhile (p := (· != (0x40 : UInt8))) (l := s)) _ hm
        simp at this
      · intro m hm; cases hm; exact hfit.1
      · intro m hm; cases hm; exact hfit.2

/-! ## The values are those of C52 and C57 -/

theorem findByMarker_pick (e : Event) (marker : Bytes) (last : Bool) (n r : Nat) (hn : 65 ≤ n) :
    Nip10.findByMarker e marker last n r =
      match pick (Nip10.collect e.tags) marker last with
      | none => .err .notFound
      | some i => .ok (Nip10.copyOut i n r) := by
  unfold Nip10.findByMarker
  rw [if_neg (by omega)]
  cases hc : Nip10.collect e.tags with
  | nil => cases last <;> rfl
  | cons i is =>
      unfold pick
      simp only []
      cases (i :: is).find? (fun x => x.marker == marker) with
      | some x => rfl
      | none =>
          cases last
          · rfl
          · rw [Option.none_or, if_pos rfl, List.getLast?_eq_some_getLast (by simp)]; rfl

theorem find_same {e : Event} {marker : Bytes} {last : Bool} {m r : Bytes} {id relay : Bytes} (ht : ∀ t ∈ e.tags, ∀ v ∈ t, CText v)
    (h : Nip10.findByMarker e marker last m.length r.length = .ok (id, relay)) :
    ∃ o', find e marker last ⟨some m, some r⟩ = .ok (none, o') ∧ Reads o'.id id ∧ Reads o'.relay relay := by
  have hm : 65 ≤ m.length := by
    by_cases hm : m.length < 65
    · unfold Nip10.findByMarker at h
      rw [if_pos hm] at h; cases h
    · omega
  rw [findByMarker_pick e marker last _ _ hm] at h
  unfold find
  simp only []
  rw [if_neg (by omega)]
  obtain ⟨id', p1, p2, g1⟩ := put0 (m := m) (by omega)
  obtain ⟨r', q1, g2⟩ := clear_got (b := some r)
  simp only [p1, q1, Res.bind_ok]
  cases hp : pick (Nip10.collect e.tags) marker last with
  | none => rw [hp] at h; cases h
  | some i =>
      rw [hp] at h
      have hmem := pick_mem hp
      unfold Nip10.collect at hmem
      obtain ⟨t, htm, hte⟩ := List.mem_filterMap.1 hmem
      obtain ⟨tid, rest, _, _, _, e4, e5⟩ := parse_ctext (ht t htm) hte
      obtain ⟨a, b, k1, k2, k3⟩ := copy_info (id := id') e4 e5 (by omega) g2
      simp only [k1, Res.bind_ok]
      simp only [Nip10.copyOut, Res.ok.injEq, Prod.mk.injEq] at h
      obtain ⟨rfl, rfl⟩ := h
      refine ⟨_, rfl, ?_, ?_⟩
      · have := k2.2.1
        unfold cut at this
        rw [Option.getD_some, p2] at this
        exact this
      · have h3 := k3.2.1
        unfold cut at h3
        rw [Option.getD_some] at h3
        intro x hx hne
        have hr : 0 < r.length := by
          have := k3.1
          simp only [] at hx
          rw [hx] at this
          simp only [SameRoom, Option.map_some, Option.some.injEq] at this
          have := List.length_pos_iff.2 hne
          omega
        have := h3 x hx hne
        by_cases hi : i.relay = []
        · rw [if_neg (by simp [hi])]
          rw [hi] at this
          simpa using this
        · rw [if_pos ⟨hr, hi⟩]; exact this

/-- **C196** (which texts): the texts in the buffers are those that C52 and C57 speak of. -/
theorem C196_values_partial (e : Event) (m r s : Bytes) (ht : ∀ t ∈ e.tags, ∀ v ∈ t, CText v) (hs : CText s) :
    (∀ id relay, Nip10.getRootId e m.length r.length = .ok (id, relay) →
      ∃ o', rootId e ⟨some m, some r⟩ = .ok (none, o') ∧ Reads o'.id id ∧ Reads o'.relay relay) ∧
    (∀ id relay, Nip10.getReplyId e m.length r.length = .ok (id, relay) →
      ∃ o', replyId e ⟨some m, some r⟩ = .ok (none, o') ∧ Reads o'.id id ∧ Reads o'.relay relay) ∧
    (∀ name domain, Nip05.parse s m.length r.length = .ok (name, domain) →
      ∃ n' d', identifierParse s (some m) (some r) = .ok (none, n', d') ∧ Reads n' name ∧ Reads d' domain) := by
  refine ⟨fun _ _ h => find_same ht h, fun _ _ h => find_same ht h, ?_⟩
  intro name domain h
  obtain ⟨code, n', d', h1, h2, h3⟩ := C196_identifier s (some m) (some r) hs
  have hcode : code = none := by
    cases code with
    | none => rfl
    | some x =>
        exfalso
        unfold identifierParse at h1
        unfold Nip05.parse at h
        simp only [] at h1
        split at h
        · cases h
        rename_i g0
        rw [if_neg g0] at h1
        split at h
        · cases h
        rename_i c dom hdom
        rw [hdom] at h1
        simp only [] at h1
        split at h
        · cases h
        rename_i g1
        rw [if_neg g1] at h1
        split at h
        · cases h
        rename_i g2
        rw [if_neg g2] at h1
        split at h
        · cases h
        rename_i g3
        rw [if_neg g3] at h1
        obtain ⟨a, _, k⟩ := Res.bind_eq_ok.1 h1
        obtain ⟨b, _, k⟩ := Res.bind_eq_ok.1 k
        cases k
  subst hcode
  obtain ⟨loc, dom, e1, e2, _, _, _, _, _, _, t1, t2⟩ := h3 rfl
  refine ⟨n', d', h1, ?_, ?_⟩
  all_goals
    have w1 : s.takeWhile (· != (0x40 : UInt8)) = loc := by
      rw [e1, List.takeWhile_append_of_pos (by intro x hx; simp; intro hxe; subst hxe; exact e2 hx)]
      simp
    have w2 : s.dropWhile (· != (0x40 : UInt8)) = 0x40 :: dom := by
      rw [e1, List.dropWhile_append_of_pos (by intro x hx; simp; intro hxe; subst hxe; exact e2 hx)]
      simp
    unfold Nip05.parse at h
    rw [w1, w2] at h
    simp only [] at h
    repeat' split at h
    all_goals (cases h; try assumption)

/-! ## What goes wrong, and examples -/

/-- An id of 64 hex digits. -/
def sample : Bytes := List.replicate 63 0x61 ++ [0x62]

/-- A reaction to `sample` by the author "bob". -/
def liked : Event := { zero with kind := 7, content := some (c!"+"), tags := [[c!"e", sample], [c!"p", c!"bob"], [c!"k", c!"30023"]] }

/-- A repost with a relay hint. -/
def shared : Event := { zero with kind := 6, content := some [], tags := [[c!"e", sample, c!"wss://relay.example.com"]] }

/-- Memory of `n` bytes with remains of earlier use. -/
def dirty (n : Nat) : Buf := some (List.replicate n 0x7a)

/-- **C196** fails for texts that do not fit: with a buffer of 64 bytes for the id, which has no room for the terminator, the
reaction is reported as found and the buffer reads another text than the tag's; the relay hint of a repost or of a thread
reference is cut to the address of another relay; and a value longer than 64 bytes is cut by the thread lookup even if the
buffer has room for it. No error in any of the cases (nip25.c:92, nip18.c:116, nip10.c:22-25, 97-101). -/
theorem C196_cut_refuted :
    (∃ o', reactionParse liked ⟨dirty 8, dirty 64, dirty 65, some 1⟩ = .ok (none, o') ∧ Reads o'.id (List.replicate 63 0x61)) ∧
    (∃ o', repostParse shared ⟨dirty 65, dirty 65, dirty 23, none⟩ = .ok (none, o') ∧ Reads o'.relay (c!"wss://relay.example.co")) ∧
    (∃ o', rootId shared ⟨dirty 65, dirty 23⟩ = .ok (none, o') ∧ Reads o'.relay (c!"wss://relay.example.co")) ∧
    (∃ o', rootId { zero with tags := [[c!"e", sample ++ c!"cd"]] } ⟨dirty 200, none⟩ = .ok (none, o') ∧ Reads o'.id sample) := by
  refine ⟨⟨⟨some (c!"+" ++ List.replicate 7 0), some (List.replicate 63 0x61 ++ [0]), some (c!"bob" ++ List.replicate 62 0), some 30023⟩,
      by decide +kernel, ?_⟩,
    ⟨⟨some (sample ++ [0]), some (0 :: List.replicate 64 0x7a), some (c!"wss://relay.example.co" ++ [0]), none⟩, by decide +kernel, ?_⟩,
    ⟨⟨some (sample ++ [0]), some (c!"wss://relay.example.co" ++ [0])⟩, by decide +kernel, ?_⟩,
    ⟨⟨some (sample ++ List.replicate 136 0), none⟩, by decide +kernel, ?_⟩⟩
  · intro m h _; cases h; exact ⟨by decide +kernel, [], rfl⟩
  · intro m h _; cases h; exact ⟨by decide +kernel, [], rfl⟩
  · intro m h _; cases h; exact ⟨by decide +kernel, [], rfl⟩
  · intro m h _; cases h; exact ⟨by decide +kernel, List.replicate 135 0, by decide +kernel⟩

/-- **C196** fails for calls that fail: a reaction without `e` tag is refused with NOT_FOUND, but its content, author and
kind have been handed out; a repost without `e` tag likewise hands out its author and kind (nip25.c:107, 143, nip18.c:160-163). -/
theorem C196_left_refuted :
    (∃ o', reactionParse { liked with tags := liked.tags.tail } ⟨dirty 8, dirty 65, dirty 65, some 1⟩ = .ok (some .notFound, o') ∧
      Reads o'.content (c!"+") ∧ Reads o'.id [] ∧ Reads o'.pubkey (c!"bob") ∧ o'.kind = some 30023) ∧
    (∃ o', repostParse { shared with tags := [[c!"p", c!"bob"]] } ⟨dirty 65, dirty 65, dirty 9, some 0⟩ = .ok (some .notFound, o') ∧
      Reads o'.id [] ∧ Reads o'.pubkey (c!"bob") ∧ Reads o'.relay [] ∧ o'.kind = some 1) := by
  refine ⟨⟨⟨some (c!"+" ++ List.replicate 7 0), some (0 :: List.replicate 64 0x7a), some (c!"bob" ++ List.replicate 62 0), some 30023⟩,
      by decide +kernel, ?_, ?_, ?_, rfl⟩,
    ⟨⟨some (0 :: List.replicate 64 0x7a), some (c!"bob" ++ List.replicate 62 0), some (0 :: List.replicate 8 0x7a), some 1⟩,
      by decide +kernel, ?_, ?_, ?_, rfl⟩⟩
  · intro m h _; cases h; exact ⟨by decide +kernel, List.replicate 6 0, rfl⟩
  · intro m h _; cases h; exact ⟨by decide +kernel, List.replicate 64 0x7a, rfl⟩
  · intro m h _; cases h; exact ⟨by decide +kernel, List.replicate 61 0, rfl⟩
  · intro m h _; cases h; exact ⟨by decide +kernel, List.replicate 64 0x7a, rfl⟩
  · intro m h _; cases h; exact ⟨by decide +kernel, List.replicate 61 0, rfl⟩
  · intro m h _; cases h; exact ⟨by decide +kernel, List.replicate 8 0x7a, rfl⟩

/-- A reaction read into buffers with room: everything is whole. The hypotheses of `C196_reaction_partial` hold. -/
example : (∀ s, liked.content = some s → CText s) ∧ (∀ t ∈ liked.tags, ∀ v ∈ t, CText v) ∧
    Room (dirty 65) ((lastValue (c!"e") liked.tags).getD []) ∧ lastValue (c!"e") liked.tags = some sample ∧
    reactionParse liked ⟨dirty 3, dirty 65, none, none⟩ = .ok (none, ⟨some [0x2b, 0, 0], some (sample ++ [0]), none, none⟩) := by
  refine ⟨?_, ?_, ?_, by decide +kernel, by decide +kernel⟩
  · intro s h; cases h; unfold CText; decide +kernel
  · unfold CText; decide +kernel
  · intro m h; cases h; decide +kernel

/-- A repost with hint, an author buffer of size zero and room for the hint. -/
example : (∀ t ∈ shared.tags, ∀ v ∈ t, CText v) ∧
    repostParse shared ⟨dirty 65, some [], dirty 25, some 9⟩ =
      .ok (none, ⟨some (sample ++ [0]), some [], some (c!"wss://relay.example.com" ++ [0, 0]), some 1⟩) := by
  refine ⟨?_, by decide +kernel⟩
  unfold CText; decide +kernel

/-- Thread lookups: found, not found (the hint buffer is emptied), and an id buffer that is too small (nothing changes). -/
example : replyId shared ⟨dirty 65, dirty 24⟩ = .ok (none, ⟨some (sample ++ [0]), some (c!"wss://relay.example.com" ++ [0])⟩) ∧
    replyId zero ⟨dirty 65, dirty 2⟩ = .ok (some .notFound, ⟨some (0 :: List.replicate 64 0x7a), some [0, 0x7a]⟩) ∧
    replyId shared ⟨dirty 64, dirty 24⟩ = .ok (some .invalidParam, ⟨dirty 64, dirty 24⟩) := by
  decide +kernel

/-- Identifiers: accepted in lower case; refused for a buffer without room for the terminator, which is left alone. -/
example : CText (c!"Bob@Example.com") ∧
    identifierParse (c!"Bob@Example.com") (dirty 5) (dirty 12) = .ok (none, some [0x62, 0x6f, 0x62, 0, 0x7a], some (c!"example.com" ++ [0])) ∧
    identifierParse (c!"Bob@Example.com") (dirty 3) (dirty 12) = .ok (some .invalidParam, dirty 3, dirty 12) := by
  unfold CText; decide +kernel

end Nostr.Outbuf.Props
