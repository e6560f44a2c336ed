import Verif.Outbuf.Props
import Verif.Outbuf.Zap
import Verif.Outbuf.SetSpec
import Verif.Zap.Props
import Verif.Own.Defined

/-! # Property theorems: C208 -/

namespace Nostr.Outbuf.Props
open Nostr Nostr.Event Nostr.Outbuf Nostr.Outbuf.Spec

theorem alike_of {a b a' b' : Option Bytes} {s : Bytes} (h : SameRoom a b) (ga : Got a a' s) (gb : Got b b' s) : Alike a' b' := by
  have hc : cut a s = cut b s := by
    have : (a.getD []).length = (b.getD []).length := by cases a <;> cases b <;> simp_all [SameRoom]
    rw [cut, cut, this]
  refine ⟨?_, cut a s, ga.2.1, hc ▸ gb.2.1⟩
  have h1 := ga.1; have h2 := gb.1
  unfold SameRoom at *
  rw [h1, h2, h]

/-- The same outputs are given, with the same sizes. -/
def Reaction.Same (a b : Reaction) : Prop :=
  SameRoom a.content b.content ∧ SameRoom a.id b.id ∧ SameRoom a.pubkey b.pubkey ∧ a.kind.isSome = b.kind.isSome

/-- The caller sees the same in all outputs. -/
def Reaction.Seen (a b : Reaction) : Prop := Alike a.content b.content ∧ Alike a.id b.id ∧ Alike a.pubkey b.pubkey ∧ a.kind = b.kind

/-- The same outputs are given, with the same sizes. -/
def Repost.Same (a b : Repost) : Prop :=
  SameRoom a.id b.id ∧ SameRoom a.pubkey b.pubkey ∧ SameRoom a.relay b.relay ∧ a.kind.isSome = b.kind.isSome

/-- The caller sees the same in all outputs. -/
def Repost.Seen (a b : Repost) : Prop := Alike a.id b.id ∧ Alike a.pubkey b.pubkey ∧ Alike a.relay b.relay ∧ a.kind = b.kind

/-- The same outputs are given, with the same sizes. -/
def Place.Same (a b : Place) : Prop := SameRoom a.id b.id ∧ SameRoom a.relay b.relay

/-- The caller sees the same in all outputs. -/
def Place.Seen (a b : Place) : Prop := Alike a.id b.id ∧ Alike a.relay b.relay

theorem map_const {α β : Type} {a b : Option α} (h : a.isSome = b.isSome) (x : β) : (a.map fun _ => x) = b.map fun _ => x := by
  cases a <;> cases b <;> simp_all

theorem same_trans {a b c : Option Bytes} (h : SameRoom a b) (k : SameRoom b c) : SameRoom a c := by
  unfold SameRoom at *; rw [k, h]

theorem same_symm {a b : Option Bytes} (h : SameRoom a b) : SameRoom b a := by
  unfold SameRoom at *; exact h.symm

theorem scan25_ctext (e : Event) (ht : ∀ t ∈ e.tags, ∀ v ∈ t, CText v) :
    (∀ s, (e.tags.foldl Nip25.scanTag ⟨none, none, 0⟩).id = some s → CText s) ∧
    (∀ s, (e.tags.foldl Nip25.scanTag ⟨none, none, 0⟩).pubkey = some s → CText s) := by
  obtain ⟨h1, h2, _⟩ := scan25 e.tags ⟨none, none, 0⟩
  rw [Option.or_none] at h1 h2
  rw [h1, h2]
  exact ⟨fun s h => lastValue_ctext ht h, fun s h => lastValue_ctext ht h⟩

theorem scan18_ctext (e : Event) (ht : ∀ t ∈ e.tags, ∀ v ∈ t, CText v) (k : Nat) :
    (∀ s, (e.tags.foldl Nip18.scanTag ⟨none, none, none, k⟩).id = some s → CText s) ∧
    (∀ s, (e.tags.foldl Nip18.scanTag ⟨none, none, none, k⟩).pubkey = some s → CText s) ∧
    (∀ s, (e.tags.foldl Nip18.scanTag ⟨none, none, none, k⟩).relay = some s → CText s) := by
  obtain ⟨h1, h2, h3, _⟩ := scan18 e.tags ⟨none, none, none, k⟩
  rw [Option.or_none] at h1 h2 h3
  rw [h1, h2, h3]
  exact ⟨fun s h => lastValue_ctext ht h, fun s h => lastValue_ctext ht h, fun s h => lastHint_ctext ht h⟩

/-- **C208** (reactions): every output that is asked for is set. -/
theorem C208_reaction (e : Event) (hc : ∀ s, e.content = some s → CText s) (ht : ∀ t ∈ e.tags, ∀ v ∈ t, CText v) :
    Sets Reaction.Same Reaction.Seen (reactionParse e) := by
  intro a b hs
  unfold reactionParse
  by_cases hk : e.kind ≠ 7
  · rw [if_pos hk, if_pos hk]; exact ⟨_, _, _, rfl, rfl, (by intro h; cases h)⟩
  · rw [if_neg hk, if_neg hk]
    obtain ⟨k1, k2⟩ := scan25_ctext e ht
    generalize e.tags.foldl Nip25.scanTag ⟨none, none, 0⟩ = f at k1 k2
    obtain ⟨a1, x1, g1⟩ := copy_got (b := a.content) hc
    obtain ⟨a2, x2, g2⟩ := copy_got (b := a.id) (src := none) (by simp)
    obtain ⟨a3, x3, g3⟩ := copy_got (b := a.pubkey) (src := none) (by simp)
    obtain ⟨a4, x4, g4⟩ := copy_got (b := a2) k1
    obtain ⟨a5, x5, g5⟩ := copy_got (b := a3) k2
    obtain ⟨b1, y1, i1⟩ := copy_got (b := b.content) hc
    obtain ⟨b2, y2, i2⟩ := copy_got (b := b.id) (src := none) (by simp)
    obtain ⟨b3, y3, i3⟩ := copy_got (b := b.pubkey) (src := none) (by simp)
    obtain ⟨b4, y4, i4⟩ := copy_got (b := b2) k1
    obtain ⟨b5, y5, i5⟩ := copy_got (b := b3) k2
    simp only [x1, x2, x3, x4, x5, y1, y2, y3, y4, y5, Res.bind_ok]
    exact ⟨_, _, _, rfl, rfl, fun _ => ⟨alike_of hs.1 g1 i1, alike_of hs.2.1 (got_room g2.1 g4) (got_room i2.1 i4),
      alike_of hs.2.2.1 (got_room g3.1 g5) (got_room i3.1 i5), map_const hs.2.2.2 _⟩⟩

/-- **C208** (reposts): every output that is asked for is set. -/
theorem C208_repost (e : Event) (ht : ∀ t ∈ e.tags, ∀ v ∈ t, CText v) : Sets Repost.Same Repost.Seen (repostParse e) := by
  intro a b hs
  unfold repostParse
  by_cases hk : e.kind ≠ 6 ∧ e.kind ≠ 16
  · rw [if_pos hk, if_pos hk]; exact ⟨_, _, _, rfl, rfl, (by intro h; cases h)⟩
  · rw [if_neg hk, if_neg hk]
    obtain ⟨k1, k2, k3⟩ := scan18_ctext e ht (if e.kind = 6 then 1 else 0)
    generalize e.tags.foldl Nip18.scanTag ⟨none, none, none, if e.kind = 6 then 1 else 0⟩ = f at k1 k2 k3
    obtain ⟨a1, x1, g1⟩ := copy_got (b := a.id) k1
    obtain ⟨a2, x2, g2⟩ := copy_got (b := a.pubkey) k2
    obtain ⟨a3, x3, g3⟩ := copy_got (b := a.relay) k3
    obtain ⟨b1, y1, i1⟩ := copy_got (b := b.id) k1
    obtain ⟨b2, y2, i2⟩ := copy_got (b := b.pubkey) k2
    obtain ⟨b3, y3, i3⟩ := copy_got (b := b.relay) k3
    simp only [x1, x2, x3, y1, y2, y3, Res.bind_ok]
    exact ⟨_, _, _, rfl, rfl, fun _ => ⟨alike_of hs.1 g1 i1, alike_of hs.2.1 g2 i2, alike_of hs.2.2.1 g3 i3, map_const hs.2.2.2 _⟩⟩

theorem find_sets (e : Event) (marker : Bytes) (last : Bool) (ht : ∀ t ∈ e.tags, ∀ v ∈ t, CText v) :
    Sets Place.Same Place.Seen (find e marker last) := by
  intro a b hs
  obtain ⟨aid, ar⟩ := a
  obtain ⟨bid, br⟩ := b
  obtain ⟨h1, h2⟩ := hs
  simp only at h1 h2
  unfold find
  cases aid with
  | none =>
      cases bid with
      | none => exact ⟨_, _, _, rfl, rfl, (by intro h; cases h)⟩
      | some y => cases h1
  | some x =>
      cases bid with
      | none => cases h1
      | some y =>
          have hl : x.length = y.length := by simpa [SameRoom] using h1.symm
          simp only []
          by_cases hx : x.length < 65
          · rw [if_pos hx, if_pos (hl ▸ hx)]; exact ⟨_, _, _, rfl, rfl, (by intro h; cases h)⟩
          · rw [if_neg hx, if_neg (hl ▸ hx)]
            obtain ⟨x', p1, p2, g1⟩ := put0 (m := x) (by omega)
            obtain ⟨y', q1, q2, i1⟩ := put0 (m := y) (by omega)
            obtain ⟨ar', p3, g2⟩ := clear_got (b := ar)
            obtain ⟨br', q3, i2⟩ := clear_got (b := br)
            simp only [p1, p3, q1, q3, Res.bind_ok]
            cases hp : pick (Nip10.collect e.tags) marker last with
            | none => exact ⟨_, _, _, rfl, rfl, (by intro h; cases h)⟩
            | some i =>
                have hm := pick_mem hp
                unfold Nip10.collect at hm
                obtain ⟨t, htm, hte⟩ := List.mem_filterMap.1 hm
                obtain ⟨tid, rest, e1, e2, e3, e4, e5⟩ := parse_ctext (ht t htm) hte
                obtain ⟨c, d, k1, k2, k3⟩ := copy_info (id := x') e4 e5 (by omega) g2
                obtain ⟨c', d', l1, l2, l3⟩ := copy_info (id := y') e4 e5 (by omega) i2
                simp only [k1, l1, Res.bind_ok]
                exact ⟨_, _, _, rfl, rfl, fun _ => ⟨alike_of h1 (got_room g1.1 k2) (got_room i1.1 l2), alike_of h2 k3 l3⟩⟩

/-- **C208** (threads): the lookups of root and reply set id and relay hint. -/
theorem C208_thread (e : Event) (ht : ∀ t ∈ e.tags, ∀ v ∈ t, CText v) :
    Sets Place.Same Place.Seen (rootId e) ∧ Sets Place.Same Place.Seen (replyId e) :=
  ⟨find_sets e _ _ ht, find_sets e _ _ ht⟩

/-- `nostr_nip05_parse` as a call with two outputs. -/
def identifierCall (s : Bytes) (o : Place) : Res (Option Err × Place) :=
  identifierParse s o.id o.relay >>= fun r => .ok (r.1, ⟨r.2.1, r.2.2⟩)

/-- **C208** (identifiers): reading `name@domain` sets name and domain; `Place.id` is the buffer for the name, `Place.relay` that for the
domain. -/
theorem C208_identifier (s : Bytes) (hs : CText s) : Sets Place.Same Place.Seen (identifierCall s) := by
  intro a b hsame
  obtain ⟨an, ad⟩ := a
  obtain ⟨bn, bd⟩ := b
  obtain ⟨h1, h2⟩ := hsame
  simp only at h1 h2
  unfold identifierCall identifierParse
  cases an with
  | none => cases bn with
    | none => exact ⟨_, _, _, rfl, rfl, (by intro h; cases h)⟩
    | some y => cases h1
  | some x => cases bn with
    | none => cases h1
    | some y => cases ad with
      | none => cases bd with
        | none => exact ⟨_, _, _, rfl, rfl, (by intro h; cases h)⟩
        | some _ => cases h2
      | some u => cases bd with
        | none => cases h2
        | some v =>
          have l1 : y.length = x.length := by simpa [SameRoom] using h1
          have l2 : v.length = u.length := by simpa [SameRoom] using h2
          simp only [l1, l2]
          by_cases c1 : x.length < 2 ∨ u.length < 4
          · rw [if_pos c1, if_pos c1]; exact ⟨_, _, _, rfl, rfl, (by intro h; cases h)⟩
          rw [if_neg c1, if_neg c1]
          cases hd : s.dropWhile (· != 0x40) with
          | nil => exact ⟨_, _, _, rfl, rfl, (by intro h; cases h)⟩
          | cons c dom =>
              simp only []
              by_cases c2 : (!Nip05.validLocal (s.takeWhile (· != 0x40))) = true
              · rw [if_pos c2, if_pos c2]; exact ⟨_, _, _, rfl, rfl, (by intro h; cases h)⟩
              rw [if_neg c2, if_neg c2]
              by_cases c3 : (!Nip05.validDomain dom) = true
              · rw [if_pos c3, if_pos c3]; exact ⟨_, _, _, rfl, rfl, (by intro h; cases h)⟩
              rw [if_neg c3, if_neg c3]
              by_cases c4 : (s.takeWhile (· != 0x40)).length ≥ x.length ∨ dom.length ≥ u.length
              · rw [if_pos c4, if_pos c4]; exact ⟨_, _, _, rfl, rfl, (by intro h; cases h)⟩
              rw [if_neg c4, if_neg c4]
              have t1 : CText (s.takeWhile (· != 0x40)) := fun hm => hs ((List.takeWhile_prefix _).subset hm)
              have t2 : CText dom := fun hm => hs ((List.dropWhile_suffix _).subset (hd ▸ List.mem_cons_of_mem _ hm))
              obtain ⟨x', p1, r1, w1⟩ := store_got (m := x) t1 (by omega)
              obtain ⟨u', p2, r2, w2⟩ := store_got (m := u) t2 (by omega)
              obtain ⟨y', q1, r3, w3⟩ := store_got (m := y) t1 (by omega)
              obtain ⟨v', q2, r4, w4⟩ := store_got (m := v) t2 (by omega)
              simp only [p1, p2, q1, q2, Res.bind_ok]
              refine ⟨_, _, _, rfl, rfl, fun _ => ⟨⟨?_, _, w1, w3⟩, ⟨?_, _, w2, w4⟩⟩⟩
              · exact same_trans (same_symm r1) (same_trans h1 r3)
              · exact same_trans (same_symm r2) (same_trans h2 r4)

/-! ## Zap receipts -/

/-- The same outputs are given, with the same sizes. -/
def Receipt.Same (a b : Receipt) : Prop :=
  a.amount.isSome = b.amount.isSome ∧ a.bolt11.isSome = b.bolt11.isSome ∧ SameRoom a.preimage b.preimage ∧ a.request.isSome = b.request.isSome

/-- The caller sees the same in all outputs. -/
def Receipt.Seen (a b : Receipt) : Prop := a.amount = b.amount ∧ a.bolt11 = b.bolt11 ∧ Alike a.preimage b.preimage ∧ a.request = b.request

/-- A buffer with room for 64 digits and their end. -/
def Roomy65 (o : Receipt) : Prop := ∀ m, o.preimage = some m → 65 ≤ m.length

theorem storePre (m v : Bytes) (hm : 65 ≤ m.length) (hv : v.length ≤ 64) :
    storePreimage m v = .ok (v ++ 0 :: m.drop (v.length + 1)) := by
  unfold storePreimage memcpy
  rw [if_pos hv, if_pos (by omega)]
  simp only [Res.bind_ok, put]
  rw [if_pos (by simp; omega), List.set_append_right _ _ (Nat.le_refl _), Nat.sub_self]
  have : ∃ x rest, m.drop v.length = x :: rest := by
    have : 0 < (m.drop v.length).length := by rw [List.length_drop]; omega
    match h : m.drop v.length, this with
    | x :: rest, _ => exact ⟨x, rest, rfl⟩
  obtain ⟨x, rest, hx⟩ := this
  have h2 : m.drop (v.length + 1) = rest := by
    rw [← List.drop_drop, hx]; rfl
  rw [hx, h2]; rfl

/-- What the loop over the tags leaves in the variables of two callers. -/
structure Run (tags : List (List Bytes)) (a b a' b' : Receipt) : Prop where
  amount1 : a'.amount = a.amount
  amount2 : b'.amount = b.amount
  bolt1 : a'.bolt11 = a.bolt11.map fun old => (lastValue (c!"bolt11") tags).or old
  bolt2 : b'.bolt11 = b.bolt11.map fun old => (lastValue (c!"bolt11") tags).or old
  request : a.request = b.request ∨ lastValue (c!"description") tags ≠ none → a'.request = b'.request
  room : SameRoom a'.preimage b'.preimage
  preimage : Alike a.preimage b.preimage ∨ (∃ v rest, (c!"preimage" :: v :: rest) ∈ tags ∧ v.length ≤ 64) → Alike a'.preimage b'.preimage

theorem lastValue_cons (name : Bytes) (t : List Bytes) (ts : List (List Bytes)) :
    lastValue name (t :: ts) = (lastValue name ts).or (valueOf name t) := by
  unfold lastValue
  cases h : valueOf name t with
  | none => rw [List.filterMap_cons_none h, Option.or_none]
  | some v =>
      rw [List.filterMap_cons_some h, List.getLast?_cons]
      cases (ts.filterMap (valueOf name)).getLast? <;> rfl

theorem loop_run (P : Plat) (b : Build) (cfg : Option Config.Config) : ∀ (tags : List (List Bytes)) (x y : Receipt),
    (∀ t ∈ tags, ∀ v ∈ t, CText v) → Receipt.Same x y → Roomy65 x →
    ∃ code x' y', receiptLoop P b cfg tags x = .ok (code, x') ∧ receiptLoop P b cfg tags y = .ok (code, y') ∧ (code = none → Run tags x y x' y') := by
  intro tags
  induction tags with
  | nil =>
      intro x y _ hs _
      refine ⟨none, x, y, rfl, rfl, fun _ => ⟨rfl, rfl, ?_, ?_, ?_, hs.2.2.1, ?_⟩⟩
      · cases x.bolt11 <;> rfl
      · cases y.bolt11 <;> rfl
      · rintro (h | h)
        · exact h
        · exact absurd rfl h
      · rintro (h | ⟨_, _, h, _⟩)
        · exact h
        · cases h
  | cons t ts ih =>
      intro x y ht hs hr
      have ht' : ∀ t ∈ ts, ∀ v ∈ t, CText v := fun u hu => ht u (List.mem_cons_of_mem _ hu)
      -- a tag that is passed over
      have skip : (x.bolt11.isSome = true → valueOf (c!"bolt11") t = none) → (x.request.isSome = true → valueOf (c!"description") t = none) →
          (x.preimage.isSome = true → ∀ v rest, t ≠ c!"preimage" :: v :: rest) →
          ∃ code x' y', receiptLoop P b cfg ts x = .ok (code, x') ∧ receiptLoop P b cfg ts y = .ok (code, y') ∧ (code = none → Run (t :: ts) x y x' y') := by
        intro n1 n2 n3
        obtain ⟨code, x', y', h1, h2, h3⟩ := ih x y ht' hs hr
        refine ⟨code, x', y', h1, h2, fun hc => ?_⟩
        obtain ⟨r1, r2, r3, r4, r5, r6, r7⟩ := h3 hc
        refine ⟨r1, r2, ?_, ?_, ?_, r6, ?_⟩
        · rw [r3, lastValue_cons]
          cases hx : x.bolt11 with
          | none => rfl
          | some o => rw [n1 (by rw [hx]; rfl), Option.or_none]
        · rw [r4, lastValue_cons]
          cases hy : y.bolt11 with
          | none => rfl
          | some o => rw [n1 (by rw [hs.2.1, hy]; rfl), Option.or_none]
        · intro h
          cases hx : x.request with
          | none =>
              have : y.request = none := by
                cases hy : y.request with
                | none => rfl
                | some _ => have := hs.2.2.2; rw [hx, hy] at this; cases this
              exact r5 (.inl (by rw [hx, this]))
          | some o =>
              rw [lastValue_cons, n2 (by rw [hx]; rfl), Option.or_none] at h
              exact r5 h
        · intro h
          cases hx : x.preimage with
          | none =>
              have hy : y.preimage = none := by
                cases hy : y.preimage with
                | none => rfl
                | some _ => have := hs.2.2.1; rw [hx, hy] at this; cases this
              exact r7 (.inl (by rw [hx, hy]; exact ⟨rfl, [], (by intro m h; cases h), (by intro m h; cases h)⟩))
          | some o =>
              refine r7 (h.imp id ?_)
              rintro ⟨v, rest, hm, hl⟩
              rcases List.mem_cons.1 hm with he | hm
              · exact absurd he.symm (n3 (by rw [hx]; rfl) v rest)
              · exact ⟨v, rest, hm, hl⟩
      unfold receiptLoop
      match t, ht, skip with
      | [], _, skip => exact skip (fun _ => rfl) (fun _ => rfl) (fun _ _ _ h => by cases h)
      | [n], _, skip => exact skip (fun _ => rfl) (fun _ => rfl) (fun _ _ _ h => by cases h)
      | name :: value :: rest, ht, skip =>
          simp only []
          by_cases c1 : name = c!"bolt11" ∧ x.bolt11.isSome
          · have c1' : name = c!"bolt11" ∧ y.bolt11.isSome := ⟨c1.1, hs.2.1 ▸ c1.2⟩
            rw [if_pos c1, if_pos c1']
            obtain ⟨code, x', y', h1, h2, h3⟩ := ih { x with bolt11 := some (some value) } { y with bolt11 := some (some value) } ht'
              ⟨hs.1, rfl, hs.2.2.1, hs.2.2.2⟩ hr
            refine ⟨code, x', y', h1, h2, fun hc => ?_⟩
            obtain ⟨r1, r2, r3, r4, r5, r6, r7⟩ := h3 hc
            have hv : lastValue (c!"bolt11") ((name :: value :: rest) :: ts) = (lastValue (c!"bolt11") ts).or (some value) := by
              rw [lastValue_cons]; simp [valueOf, c1.1]
            refine ⟨r1, r2, ?_, ?_, ?_, r6, ?_⟩
            · rw [r3, hv]
              cases hx : x.bolt11 with
              | none => have := c1.2; rw [hx] at this; cases this
              | some o => cases lastValue (c!"bolt11") ts <;> rfl
            · rw [r4, hv]
              cases hy : y.bolt11 with
              | none => have := c1'.2; rw [hy] at this; cases this
              | some o => cases lastValue (c!"bolt11") ts <;> rfl
            · intro h
              rw [lastValue_cons] at h
              have : valueOf (c!"description") (name :: value :: rest) = none := by
                simp only [valueOf, c1.1]; rw [if_neg (by decide)]
              rw [this, Option.or_none] at h
              exact r5 h
            · intro h
              refine r7 (h.imp id ?_)
              rintro ⟨v, rest', hm, hl⟩
              rcases List.mem_cons.1 hm with he | hm
              · cases he; exact absurd c1.1 (by decide)
              · exact ⟨v, rest', hm, hl⟩
          have c1' : ¬ (name = c!"bolt11" ∧ y.bolt11.isSome) := by rw [← hs.2.1]; exact c1
          rw [if_neg c1, if_neg c1']
          have hpre : x.preimage.isSome = y.preimage.isSome := by
            have := hs.2.2.1
            cases hx : x.preimage <;> cases hy : y.preimage <;> simp_all [SameRoom]
          by_cases c2 : name = c!"preimage" ∧ x.preimage.isSome
          · have c2' : name = c!"preimage" ∧ y.preimage.isSome := by rw [← hpre]; exact c2
            rw [if_pos c2, if_pos c2']
            obtain ⟨m1, hx⟩ := Option.isSome_iff_exists.1 c2.2
            obtain ⟨m2, hy⟩ := Option.isSome_iff_exists.1 (hpre ▸ c2.2)
            have l1 : 65 ≤ m1.length := hr m1 hx
            have l2 : m2.length = m1.length := by have := hs.2.2.1; rw [hx, hy] at this; simpa [SameRoom] using this
            have hb : valueOf (c!"bolt11") (name :: value :: rest) = none := by simp only [valueOf, c2.1]; rw [if_neg (by decide)]
            have hd : valueOf (c!"description") (name :: value :: rest) = none := by simp only [valueOf, c2.1]; rw [if_neg (by decide)]
            rw [hx, hy]
            simp only [Option.getD_some]
            have key : ∀ n1 n2 : Bytes, n1.length = m1.length → n2.length = m1.length →
                (Alike (some m1) (some m2) ∨ value.length ≤ 64 → Alike (some n1) (some n2)) →
                ∃ code x' y', receiptLoop P b cfg ts { x with preimage := some n1 } = .ok (code, x') ∧
                  receiptLoop P b cfg ts { y with preimage := some n2 } = .ok (code, y') ∧
                  (code = none → Run ((name :: value :: rest) :: ts) x y x' y') := by
              intro n1 n2 e1 e2 hal
              obtain ⟨code, x', y', h1, h2, h3⟩ := ih { x with preimage := some n1 } { y with preimage := some n2 } ht'
                ⟨hs.1, hs.2.1, by simp [SameRoom, e1, e2], hs.2.2.2⟩ (by intro m hm; cases hm; omega)
              refine ⟨code, x', y', h1, h2, fun hc => ?_⟩
              obtain ⟨r1, r2, r3, r4, r5, r6, r7⟩ := h3 hc
              refine ⟨r1, r2, by rw [r3, lastValue_cons, hb, Option.or_none], by rw [r4, lastValue_cons, hb, Option.or_none],
                by rw [lastValue_cons, hd, Option.or_none]; exact r5, r6, ?_⟩
              intro h
              rw [hx, hy] at h
              rcases h with h | ⟨v, rest', hm, hl⟩
              · exact r7 (.inl (hal (.inl h)))
              · rcases List.mem_cons.1 hm with he | hm
                · cases he; exact r7 (.inl (hal (.inr hl)))
                · exact r7 (.inr ⟨v, rest', hm, hl⟩)
            by_cases hv : value.length ≤ 64
            · rw [storePre m1 value l1 hv, storePre m2 value (by omega) hv]
              simp only [Res.bind_ok]
              refine key _ _ ?_ ?_ (fun _ => ⟨?_, value, ?_, ?_⟩)
              · simp only [List.length_append, List.length_cons, List.length_drop]; omega
              · simp only [List.length_append, List.length_cons, List.length_drop]; omega
              · simp only [SameRoom, Option.map_some, List.length_append, List.length_cons, List.length_drop, l2]
              · intro m hm _; cases hm; exact ⟨ht _ List.mem_cons_self _ (by simp), _, rfl⟩
              · intro m hm _; cases hm; exact ⟨ht _ List.mem_cons_self _ (by simp), _, rfl⟩
            · have e : ∀ m, storePreimage m value = .ok m := fun m => by unfold storePreimage; rw [if_neg hv]
              rw [e, e]
              simp only [Res.bind_ok]
              exact key m1 m2 rfl l2 (fun h => h.resolve_right hv)
          have c2' : ¬ (name = c!"preimage" ∧ y.preimage.isSome) := by rw [← hpre]; exact c2
          rw [if_neg c2, if_neg c2']
          by_cases c3 : name = c!"description" ∧ x.request.isSome
          · have c3' : name = c!"description" ∧ y.request.isSome := by rw [← hs.2.2.2]; exact c3
            rw [if_pos c3, if_pos c3']
            have hb : valueOf (c!"bolt11") (name :: value :: rest) = none := by simp only [valueOf, c3.1]; rw [if_neg (by decide)]
            cases hq : fromJson P b cfg value with
            | ub => exact absurd hq (Own.Defined.fromJson_defined P b cfg value)
            | err z => exact ⟨some z, _, _, rfl, rfl, (by intro h; cases h)⟩
            | ok q =>
                simp only []
                obtain ⟨code, x', y', h1, h2, h3⟩ := ih { x with request := some (some q) } { y with request := some (some q) } ht'
                  ⟨hs.1, hs.2.1, hs.2.2.1, rfl⟩ hr
                refine ⟨code, x', y', h1, h2, fun hc => ?_⟩
                obtain ⟨r1, r2, r3, r4, r5, r6, r7⟩ := h3 hc
                refine ⟨r1, r2, by rw [r3, lastValue_cons, hb, Option.or_none], by rw [r4, lastValue_cons, hb, Option.or_none],
                  fun _ => r5 (.inl rfl), r6, ?_⟩
                intro h
                refine r7 (h.imp id ?_)
                rintro ⟨v, rest', hm, hl⟩
                rcases List.mem_cons.1 hm with he | hm
                · cases he; exact absurd c3.1 (by decide)
                · exact ⟨v, rest', hm, hl⟩
          have c3' : ¬ (name = c!"description" ∧ y.request.isSome) := by rw [← hs.2.2.2]; exact c3
          rw [if_neg c3, if_neg c3']
          refine skip ?_ ?_ ?_
          · intro h; simp only [valueOf]; rw [if_neg (fun e => c1 ⟨e, h⟩)]
          · intro h; simp only [valueOf]; rw [if_neg (fun e => c3 ⟨e, h⟩)]
          · intro h v r e; cases e; exact c2 ⟨rfl, h⟩

/-- A receipt that carries everything a caller may ask for: an invoice that names an amount, a preimage of at most 64 bytes, and
a description. -/
structure Complete (e : Event) : Prop where
  invoice : ∃ v, lastValue (c!"bolt11") e.tags = some v ∧ Zap.amountOf v ≠ none
  preimage : ∃ v rest, (c!"preimage" :: v :: rest) ∈ e.tags ∧ v.length ≤ 64
  description : lastValue (c!"description") e.tags ≠ none

/-- **C208** (zap receipts, part): if the receipt carries everything, the buffer for the preimage has 65 bytes and the amount is
asked for only together with the invoice, then every output that is asked for is set. Missing: receipts that lack something
(`C208_receipt_refuted`), and the amount alone (`C208_amount_refuted`). -/
theorem C208_receipt_partial (P : Plat) (b : Build) (cfg : Option Config.Config) (e : Event) (ht : ∀ t ∈ e.tags, ∀ v ∈ t, CText v)
    (he : Complete e) :
    Sets (fun x y => Receipt.Same x y ∧ Roomy65 x ∧ (x.amount.isSome → x.bolt11.isSome)) Receipt.Seen (receiptTo P b cfg e) := by
  rintro x y ⟨hs, hr, ha⟩
  unfold receiptTo
  by_cases hk : e.kind ≠ 9735
  · rw [if_pos hk, if_pos hk]; exact ⟨_, _, _, rfl, rfl, (by intro h; cases h)⟩
  rw [if_neg hk, if_neg hk]
  obtain ⟨code, x', y', h1, h2, h3⟩ := loop_run P b cfg e.tags x y ht hs hr
  rw [h1, h2]
  simp only [Res.bind_ok]
  cases code with
  | some z => exact ⟨_, _, _, rfl, rfl, (by intro h; cases h)⟩
  | none =>
      refine ⟨_, _, _, rfl, rfl, fun _ => ?_⟩
      obtain ⟨r1, r2, r3, r4, r5, r6, r7⟩ := h3 rfl
      obtain ⟨v, hv, hv'⟩ := he.invoice
      have e1 : x'.bolt11 = x.bolt11.map fun _ => some v := by rw [r3, hv]; cases x.bolt11 <;> rfl
      have e2 : y'.bolt11 = y.bolt11.map fun _ => some v := by rw [r4, hv]; cases y.bolt11 <;> rfl
      have e3 : x'.bolt11 = y'.bolt11 := by rw [e1, e2]; exact map_const hs.2.1 _
      refine ⟨?_, e3, r7 (.inr he.preimage), r5 (.inr he.description)⟩
      simp only [storeAmount, r1, r2, ← e3]
      cases hx : x.amount with
      | none =>
          cases hy : y.amount with
          | none => rfl
          | some _ => have := hs.1; rw [hx, hy] at this; cases this
      | some o1 =>
          cases hy : y.amount with
          | none => have := hs.1; rw [hx, hy] at this; cases this
          | some o2 =>
              have hb := ha (by rw [hx]; rfl)
              obtain ⟨old, hb⟩ := Option.isSome_iff_exists.1 hb
              obtain ⟨n, hn⟩ := Option.ne_none_iff_exists'.1 hv'
              rw [e1, hb]
              simp [hn]

/-- **C208** fails for receipts that lack something: a receipt without tags is read with success, and every variable of the caller
is as it was before: amount, invoice, preimage and request of an earlier receipt are taken for this one's. -/
theorem C208_receipt_refuted (P : Plat) (b : Build) (cfg : Option Config.Config) (n : Nat) (inv : Bytes) (m : Bytes) (q : Event) :
    receiptTo P b cfg { zero with kind := 9735 } ⟨some n, some none, some m, some (some q)⟩ =
      .ok (none, ⟨some n, some none, some m, some (some q)⟩) ∧
    (Zap.amountOf inv = none → receiptTo P b cfg { zero with kind := 9735 } ⟨some n, some (some inv), some m, some (some q)⟩ =
      .ok (none, ⟨some n, some (some inv), some m, some (some q)⟩)) ∧
    ¬ Sets (fun x y => Receipt.Same x y ∧ Roomy65 x ∧ (x.amount.isSome → x.bolt11.isSome)) Receipt.Seen (receiptTo P b cfg { zero with kind := 9735 }) := by
  refine ⟨rfl, fun h => ?_, fun hS => ?_⟩
  on_goal 2 =>
    obtain ⟨code, a', b', h1, h2, h3⟩ := hS ⟨some 1, some none, none, none⟩ ⟨some 2, some none, none, none⟩
      ⟨⟨rfl, rfl, rfl, rfl⟩, (by intro m h; cases h), fun _ => rfl⟩
    cases h1; cases h2
    have := (h3 rfl).1
    cases this
  unfold receiptTo
  rw [if_neg (by decide)]
  simp [receiptLoop, zero, storeAmount, h]

/-- **C208** fails for the amount alone: a caller who asks for the amount and not for the invoice is told success, and the
variable keeps what it held, whatever invoice the receipt carries (zap.c:177). -/
theorem C208_amount_refuted (P : Plat) (b : Build) (cfg : Option Config.Config) (inv : Bytes) (n : Nat) :
    receiptTo P b cfg { zero with kind := 9735, tags := [[c!"bolt11", inv]] } ⟨some n, none, none, none⟩ = .ok (none, ⟨some n, none, none, none⟩) := by
  rfl

/-! ## LNURLs -/

/-- The same outputs are given, with the same sizes. -/
def Server.Same (a b : Server) : Prop := SameRoom a.pubkey b.pubkey ∧ a.allows.isSome = b.allows.isSome

/-- The caller sees the same in both outputs. -/
def Server.Seen (a b : Server) : Prop := Alike a.pubkey b.pubkey ∧ a.allows = b.allows

/-- **C208** fails for LNURL validation: whatever text is accepted, neither the server's key nor the flag is written: a caller
who asks whether the server supports zaps reads what the variable held before (zap.c:112-135). -/
theorem C208_lnurl_refuted (s : Bytes) (hs : Zap.validateLnurl s = .ok ()) :
    (∀ o, lnurlTo s o = .ok (none, o)) ∧ ¬ Sets Server.Same Server.Seen (lnurlTo s) := by
  have h : ∀ o, lnurlTo s o = .ok (none, o) := fun o => by unfold lnurlTo; rw [hs]
  refine ⟨h, fun hS => ?_⟩
  obtain ⟨code, a', b', h1, h2, h3⟩ := hS ⟨none, some true⟩ ⟨none, some false⟩ ⟨rfl, rfl⟩
  rw [h] at h1 h2
  cases h1; cases h2
  have := (h3 rfl).2
  cases this

/-! ## Cases -/

/-- Two callers with different remains in buffers of the same sizes see the same. -/
example : Reaction.Same ⟨dirty 8, dirty 65, none, some 1⟩ ⟨some (List.replicate 8 0x61), some (List.replicate 65 0x62), none, some 7⟩ ∧
    reactionParse liked ⟨dirty 8, dirty 65, none, some 1⟩ = reactionParse liked ⟨some (List.replicate 8 0x61), some (List.replicate 65 0x62), none, some 7⟩ ∧
    (match reactionParse liked ⟨dirty 8, dirty 65, none, some 1⟩ with | .ok (none, o) => o.kind == some 30023 | _ => false) = true := by
  unfold Reaction.Same SameRoom; decide +kernel

/-- A relay hint that is not given is set to the empty text. -/
example : (match rootId { zero with tags := [[c!"e", sample]] } ⟨dirty 65, dirty 9⟩ with
    | .ok (none, o) => o.relay == some (0 :: List.replicate 8 0x7a) | _ => false) = true := by decide +kernel

/-- The description of `paid`: an event. -/
def asked : Bytes := c!"{\"kind\":9734,\"content\":\"\",\"tags\":[]}"

/-- A receipt with invoice, preimage and description. -/
def paid : Event := { zero with kind := 9735, tags := [[c!"bolt11", c!"lnbc20u1p"], [c!"preimage", c!"5d006d"], [c!"description", asked]] }

/-- `paid` meets the hypotheses of `C208_receipt_partial`. -/
example : (∀ t ∈ paid.tags, ∀ v ∈ t, CText v) ∧ Complete paid := by
  refine ⟨by unfold CText; decide +kernel, ⟨⟨c!"lnbc20u1p", by decide +kernel, by decide +kernel⟩, ⟨c!"5d006d", [], by simp [paid], by decide⟩, by decide +kernel⟩⟩

/-- An LNURL is accepted; what the caller's flag held stays. -/
example : lnurlTo (c!"lnurl1qqqqqqqqqq") ⟨dirty 33, some true⟩ = .ok (none, ⟨dirty 33, some true⟩) ∧
    lnurlTo (c!"lnurl1qqqqqqqqqq") ⟨dirty 33, some false⟩ = .ok (none, ⟨dirty 33, some false⟩) := by decide +kernel

/-- An invoice over 2000 satoshi, and the caller who asks for the amount alone: 7 stays 7. With the invoice the amount is set. -/
example (P : Plat) (b : Build) (cfg : Option Config.Config) :
    receiptTo P b cfg { zero with kind := 9735, tags := [[c!"bolt11", c!"lnbc20u1p"]] } ⟨some 7, none, none, none⟩ = .ok (none, ⟨some 7, none, none, none⟩) ∧
    receiptTo P b cfg { zero with kind := 9735, tags := [[c!"bolt11", c!"lnbc20u1p"]] } ⟨some 7, some none, none, none⟩ =
      .ok (none, ⟨some 2000000, some (some (c!"lnbc20u1p")), none, none⟩) := ⟨rfl, by rfl⟩

end Nostr.Outbuf.Props
