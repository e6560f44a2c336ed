import Verif.Own.Receipt
import Verif.Own.EvProps
import Verif.Own.TreeProps
import Verif.Zap.Props

/-! # Property theorems: memory of reading a zap receipt (C181) -/

namespace Nostr.Own.Receipt.Props
open Nostr Nostr.Heap Nostr.Own Nostr.Own.Ev Nostr.Own.Ev.Props Nostr.Own.Tree Nostr.Own.Receipt Nostr.Event
open Nostr.Own.Answers (Var)

/-! ## Specification -/

/-- The block that a variable for a text points at. -/
def texts (v : Var) : List Nat := (v.getD none).toList

/-- The blocks of the event in the variable for the request. -/
def evs : Req → List Nat
  | .got e _ => blocks e
  | _ => []

/-- The request that the caller is given. -/
def given : Req → Option Event
  | .got _ v => some v
  | _ => none

/-- The tags with this name, and a value. -/
def named (n : Bytes) : List Bytes → Bool
  | a :: _ :: _ => decide (a = n)
  | _ => false

/-- How many tags of this name there are. -/
def tally (n : Bytes) (tags : List (List Bytes)) : Nat := (tags.filter (named n)).length

/-- The tags that the caller asks for: those whose variable is given. -/
def wanted (b p d : Bool) (t : List Bytes) : Bool :=
  (b || !named (c!"bolt11") t) && (p || !named (c!"preimage") t) && (d || !named (c!"description") t)

/-- The receipt, without the tags that the caller does not ask for. -/
def seen (e : Event) (o : Out) : Event := { e with tags := e.tags.filter (wanted o.bolt.isSome o.pre.isSome o.req.asked) }

/-- Variables as a caller should prepare them: that for the invoice is NULL, and the buffer for the preimage has 65 bytes. -/
structure Ready (o : Out) : Prop where
  bolt : o.bolt.getD none = none
  pre : ∀ n s, o.pre = some (n, s) → 65 ≤ n ∧ s = none
  req : o.req = .unasked ∨ o.req = .asis

/-! ## Lemmas -/

/-- What is known in the loop: the blocks, those of the variables and the lost ones, and the values. -/
structure St (h0 m : Mem) (o : Out) (r : Zap.Receipt) (lt : List Nat) (le : List HEv) : Prop where
  own : Owned h0 m (texts o.bolt ++ (evs o.req ++ (lt ++ le.flatMap blocks)))
  bolt : (o.bolt.getD none).bind m = r.bolt11.map .str
  req : given o.req = r.request
  ev : ∀ e v, o.req = .got e v → e.content.bind m = v.content.map .str
  pre : o.pre.bind (·.2) = r.preimage
  room : ∀ n s, o.pre = some (n, s) → 65 ≤ n

theorem named_cons (n a b : Bytes) (r : List Bytes) : named n (a :: b :: r) = decide (a = n) := rfl

theorem tally_cons (n : Bytes) (t : List Bytes) (ts : List (List Bytes)) :
    tally n (t :: ts) = (if named n t then 1 else 0) + tally n ts := by
  unfold tally
  by_cases h : named n t = true
  · rw [List.filter_cons_of_pos h, if_pos h]; simp only [List.length_cons]; omega
  · rw [List.filter_cons_of_neg h, if_neg h]; omega

/-- What the loop leaves. -/
def After (A : Alloc) (h0 m : Mem) (b p d : Bool) (ni nd : Nat) (v : Res Zap.Receipt) (x : Option Err) (o' : Out) : Prop :=
  ∃ lt le, o'.bolt.isSome = b ∧ o'.pre.isSome = p ∧ o'.req.asked = d ∧
    ((x = none ∧ ∃ r, v = .ok r ∧ St h0 m o' r lt le ∧ lt.length = ni - 1 ∧ le.length = nd - 1) ∨
      ∃ y, x = some y ∧ (v = .err y ∨ Refused A h0 ∧ (y = .memory ∨ y = .jsonParse)) ∧ o'.bolt.getD none = none ∧
        (evs o'.req = [] ∨ Refused A h0) ∧ Owned h0 m (evs o'.req ++ (lt ++ le.flatMap blocks)) ∧ lt.length ≤ ni - 1 ∧ le.length ≤ nd - 1)

theorem blocks_ne (e : HEv) : blocks e ≠ [] := by simp [blocks]

theorem read_ok {A : Alloc} (hA : Fresh A) (P : Plat) (td : Int → Int) (fr : Int → Bytes) (cfg : Option Config.Config)
    (grow : Event → List Bytes → Bool) (s : Bytes) (h : Heap) {h0 : Mem} {own : List Nat} (o : Owned h0 h.mem own) :
    ∃ r h', fromJson A P cfg grow s h = some (r, h') ∧ (∀ x ∈ own, h'.mem x = h.mem x) ∧
      ((∃ x, r.1 = some x ∧ h'.mem = h.mem ∧
          (Event.fromJson P (.cjson td fr) cfg s = .err x ∨ (Refused A h0 ∧ (x = .memory ∨ x = .jsonParse)))) ∨
        ∃ e, r.1 = none ∧ r.2.2 = some e ∧ Event.fromJson P (.cjson td fr) cfg s = .ok r.2.1 ∧
          Owned h0 h'.mem (blocks e ++ own) ∧ e.content.bind h'.mem = r.2.1.content.map .str) := by
  obtain ⟨r, h', e1, hx⟩ := C137_held hA P td fr cfg grow s h
  obtain ⟨r2, h2, e2, hy⟩ := C137_memory hA P td fr cfg grow s h
  rw [e1] at e2
  simp only [Option.some.injEq, Prod.mk.injEq] at e2
  obtain ⟨rfl, rfl⟩ := e2
  refine ⟨r, h', e1, ?_, ?_⟩
  · intro x hxo
    rcases hx with ⟨_, _, m, _⟩ | ⟨e, _, _, _, d⟩
    · rw [m]
    · exact d.own.same x fun hm => o.live x hxo (d.own.fresh x hm)
  · rcases hx with ⟨x, hr, m, -⟩ | ⟨e, hr, he, hv, d⟩
    · rcases hy with ⟨y, hr', -, -, hv⟩ | ⟨e, _, hr', _⟩
      · rw [hr] at hr'
        cases hr'
        exact .inl ⟨x, hr, m, hv.imp id fun hv => ⟨hv.1.back o.same, hv.2⟩⟩
      · rw [hr] at hr'; cases hr'
    · have hb : Owned h.mem h'.mem (blocks e) := by simpa using d.own
      exact .inr ⟨e, hr, he, hv, (o.extend hb.nodup hb.fresh hb.live hb.same).1, d.text⟩

/-- The event in the variable. -/
def held : Req → List HEv
  | .got e _ => [e]
  | _ => []

theorem held_blocks (q : Req) : (held q).flatMap blocks = evs q := by
  cases q <;> simp [held, evs]

theorem held_length (q : Req) : (held q).length ≤ 1 ∧ ((held q).length = 0 ↔ evs q = []) := by
  cases q <;> simp [held, evs, blocks_ne]

theorem tally_filter (n : Bytes) (f : List Bytes → Bool) (ts : List (List Bytes)) (h : ∀ t, named n t = true → f t = true) :
    tally n (ts.filter f) = tally n ts := by
  unfold tally
  rw [List.filter_filter]
  congr 1
  refine List.filter_congr fun t _ => ?_
  by_cases ht : named n t = true
  · simp [ht, h t ht]
  · simp [ht]

theorem tally_none (n : Bytes) (f : List Bytes → Bool) (ts : List (List Bytes)) (h : ∀ t, named n t = true → f t = false) :
    tally n (ts.filter f) = 0 := by
  unfold tally
  rw [List.filter_filter, List.length_eq_zero_iff, List.filter_eq_nil_iff]
  intro t _
  by_cases ht : named n t = true
  · simp [h t ht]
  · simp [ht]

theorem wanted_is {n : Bytes} {b p d : Bool} {t : List Bytes} (h : named n t = true) :
    wanted b p d t = ((b || decide (n ≠ c!"bolt11")) && (p || decide (n ≠ c!"preimage")) && (d || decide (n ≠ c!"description"))) := by
  match t, h with
  | a :: v :: r, h =>
    have : a = n := by simpa [named_cons] using h
    subst this
    simp [wanted, named_cons]

theorem tally_bolt (b p d : Bool) (ts : List (List Bytes)) :
    tally (c!"bolt11") (ts.filter (wanted b p d)) = 0 + if b then tally (c!"bolt11") ts else 0 := by
  cases b with
  | false => rw [tally_none _ _ _ fun t ht => by rw [wanted_is ht]; simp]; rfl
  | true => rw [tally_filter _ _ _ fun t ht => by rw [wanted_is ht]; simp]; simp

theorem tally_description (b p d : Bool) (ts : List (List Bytes)) :
    tally (c!"description") (ts.filter (wanted b p d)) = 0 + if d then tally (c!"description") ts else 0 := by
  cases d with
  | false => rw [tally_none _ _ _ fun t ht => by rw [wanted_is ht]; simp]; rfl
  | true => rw [tally_filter _ _ _ fun t ht => by rw [wanted_is ht]; simp]; simp

theorem scan_ok {A : Alloc} (hA : Fresh A) (P : Plat) (td : Int → Int) (fr : Int → Bytes) (cfg : Option Config.Config)
    (grow : Event → List Bytes → Bool) {h0 : Mem} {b p d : Bool} : ∀ (ts : List (List Bytes)) (o : Out) (r : Zap.Receipt) (ni nd : Nat) (h : Heap)
    (lt : List Nat) (le : List HEv), o.bolt.isSome = b → o.pre.isSome = p → o.req.asked = d → St h0 h.mem o r lt le →
    lt.length = ni - 1 → le.length = nd - 1 → (texts o.bolt = [] ↔ ni = 0) → (evs o.req = [] ↔ nd = 0) →
    ∃ x o' h', scan A P cfg grow ts o h = some ((x, o'), h') ∧
      After A h0 h'.mem b p d (ni + if b then tally (c!"bolt11") ts else 0) (nd + if d then tally (c!"description") ts else 0)
        (Zap.scanTags P (.cjson td fr) cfg (ts.filter (wanted b p d)) r) x o' := by
  intro ts
  induction ts with
  | nil =>
    intro o r ni nd h lt le hb hp hd st h1 h2 h3 h4
    refine ⟨none, o, h, rfl, lt, le, hb, hp, hd, .inl ⟨rfl, r, rfl, st, ?_, ?_⟩⟩
    · rw [h1]; simp [tally]
    · rw [h2]; simp [tally]
  | cons t ts ih =>
    intro o r ni nd h lt le hb hp hd st h1 h2 h3 h4
    have skip : scan A P cfg grow (t :: ts) o h = scan A P cfg grow ts o h →
        (if b then tally (c!"bolt11") (t :: ts) else 0) = (if b then tally (c!"bolt11") ts else 0) →
        (if d then tally (c!"description") (t :: ts) else 0) = (if d then tally (c!"description") ts else 0) →
        Zap.scanTags P (.cjson td fr) cfg ((t :: ts).filter (wanted b p d)) r = Zap.scanTags P (.cjson td fr) cfg (ts.filter (wanted b p d)) r →
        ∃ x o' h', scan A P cfg grow (t :: ts) o h = some ((x, o'), h') ∧
          After A h0 h'.mem b p d (ni + if b then tally (c!"bolt11") (t :: ts) else 0) (nd + if d then tally (c!"description") (t :: ts) else 0)
            (Zap.scanTags P (.cjson td fr) cfg ((t :: ts).filter (wanted b p d)) r) x o' := by
      intro e1 e2 e3 e4
      rw [e1, e2, e3, e4]
      exact ih o r ni nd h lt le hb hp hd st h1 h2 h3 h4
    match t, skip with
    | [], skip => exact skip rfl (by rw [tally_cons]; simp [named]) (by rw [tally_cons]; simp [named]) (by
        by_cases hw : wanted b p d [] = true
        · rw [List.filter_cons_of_pos hw]; rfl
        · rw [List.filter_cons_of_neg hw])
    | [a], skip => exact skip rfl (by rw [tally_cons]; simp [named]) (by rw [tally_cons]; simp [named]) (by
        by_cases hw : wanted b p d [a] = true
        · rw [List.filter_cons_of_pos hw]; rfl
        · rw [List.filter_cons_of_neg hw])
    | name :: value :: rest, skip =>
      by_cases n1 : name = c!"bolt11"
      · subst n1
        have hd' : tally (c!"description") ((c!"bolt11" :: value :: rest) :: ts) = tally (c!"description") ts := by
          rw [tally_cons]; simp [named_cons]
        have hw : wanted b p d (c!"bolt11" :: value :: rest) = b := by simp [wanted, named_cons]
        cases b with
        | false =>
          refine skip ?_ (by simp) (by rw [hd']) (by rw [List.filter_cons_of_neg (by simp [hw])])
          simp [scan, hb]
        | true =>
          rw [hd', List.filter_cons_of_pos hw, tally_cons]
          simp only [named_cons, decide_true, if_true, scan, hb, and_self, M.bind, Zap.scanTags]
          rcases allocP hA st.own (.str value) with ⟨h', e1, m1, rf⟩ | ⟨c, h', e1, v1, o1, s1⟩
          · refine ⟨some .memory, { o with bolt := some none }, h', by simp only [e1, Option.bind_some, M.pure], texts o.bolt ++ lt, le, rfl, hp, hd,
              .inr ⟨_, rfl, .inr ⟨rf, .inl rfl⟩, rfl, .inr rf, ?_, ?_, ?_⟩⟩
            · rw [m1]; exact st.own.perm (by reorder)
            · have : (texts o.bolt).length ≤ 1 := by unfold texts; cases o.bolt.getD none <;> simp
              have hz : ni = 0 → (texts o.bolt).length = 0 := fun h => by rw [h3.2 h]; rfl
              simp only [List.length_append]
              omega
            · show _ ≤ nd + _ - 1
              omega
          · simp only [e1, Option.bind_some]
            obtain ⟨x, o', h'', e2, af⟩ := ih { o with bolt := some (some c) } { r with bolt11 := some value } (ni + 1) nd h' (texts o.bolt ++ lt) le rfl hp hd
              ⟨o1.perm (by simp only [texts, Option.getD_some, Option.toList]; reorder), by simpa using v1, st.req,
                fun e v hv => text_mono (st.ev e v hv) (fun x hx => s1 x (by
                  have he : evs o.req = blocks e := by rw [hv]; rfl
                  simp only [List.mem_append]
                  exact .inr (.inl (by rw [he]; simp [blocks, hx])))), st.pre, st.room⟩
              (by
                have : (texts o.bolt).length ≤ 1 := by unfold texts; cases o.bolt.getD none <;> simp
                have hz : ni = 0 → (texts o.bolt).length = 0 := fun h => by rw [h3.2 h]; rfl
                have hn : ni ≠ 0 → (texts o.bolt).length ≠ 0 := fun h e => h (h3.1 (List.length_eq_zero_iff.1 e))
                simp only [List.length_append]
                omega) h2 (by simp [texts]) h4
            refine ⟨x, o', h'', e2, ?_⟩
            rw [show ni + (1 + tally (c!"bolt11") ts) = ni + 1 + tally (c!"bolt11") ts by omega]
            simpa using af
      · by_cases n2 : name = c!"preimage"
        · subst n2
          have hb' : tally (c!"bolt11") ((c!"preimage" :: value :: rest) :: ts) = tally (c!"bolt11") ts := by
            rw [tally_cons]; simp [named_cons]
          have hd' : tally (c!"description") ((c!"preimage" :: value :: rest) :: ts) = tally (c!"description") ts := by
            rw [tally_cons]; simp [named_cons]
          have hw : wanted b p d (c!"preimage" :: value :: rest) = p := by simp [wanted, named_cons]
          cases p with
          | false =>
            refine skip ?_ (by rw [hb']) (by rw [hd']) (by rw [List.filter_cons_of_neg (by simp [hw])])
            simp [scan, hp]
          | true =>
            rw [hb', hd', List.filter_cons_of_pos hw]
            obtain ⟨q, hq⟩ := Option.isSome_iff_exists.1 hp
            have hr := st.room q.1 q.2 (by rw [hq])
            have key : ∀ q' : Nat × Option Bytes, q'.1 = q.1 → ∀ r' : Zap.Receipt, r'.bolt11 = r.bolt11 → r'.request = r.request → r'.preimage = q'.2 →
                St h0 h.mem { o with pre := some q' } r' lt le := fun q' hq' r' g1 g2 g3 =>
              ⟨st.own, by rw [g1]; exact st.bolt, by rw [g2]; exact st.req, st.ev, by rw [g3]; rfl, fun n s hn => by
                simp only [Option.some.injEq] at hn
                subst hn
                have : n = q.1 := hq'
                omega⟩
            have e1 : scan A P cfg grow ((c!"preimage" :: value :: rest) :: ts) o =
                M.bind (putPre value q) fun p => scan A P cfg grow ts { o with pre := some p } := by simp [scan, hq]
            have e2 : Zap.scanTags P (.cjson td fr) cfg ((c!"preimage" :: value :: rest) :: ts.filter (wanted b true d)) r =
                Zap.scanTags P (.cjson td fr) cfg (ts.filter (wanted b true d)) (if value.length ≤ 64 then { r with preimage := some value } else r) := by
              simp [Zap.scanTags]
            rw [e1, e2]
            simp only [putPre, M.bind]
            by_cases hl : value.length ≤ 64
            · rw [if_pos hl, if_pos hl, if_pos (by omega)]
              simp only [M.pure, Option.bind_some]
              exact ih _ _ ni nd h lt le hb rfl hd (key (q.1, some value) rfl _ rfl rfl rfl) h1 h2 h3 h4
            · rw [if_neg hl, if_neg hl]
              simp only [M.pure, Option.bind_some]
              exact ih _ _ ni nd h lt le hb rfl hd (key q rfl _ rfl rfl (by rw [← st.pre, hq]; rfl)) h1 h2 h3 h4
        · by_cases n3 : name = c!"description"
          · subst n3
            have hb' : tally (c!"bolt11") ((c!"description" :: value :: rest) :: ts) = tally (c!"bolt11") ts := by
              rw [tally_cons]; simp [named_cons]
            have hw : wanted b p d (c!"description" :: value :: rest) = d := by simp [wanted, named_cons]
            cases d with
            | false =>
              refine skip ?_ (by rw [hb']) (by simp) (by rw [List.filter_cons_of_neg (by simp [hw])])
              simp [scan, hd]
            | true =>
              rw [hb', List.filter_cons_of_pos hw, tally_cons]
              have g2 : Zap.scanTags P (.cjson td fr) cfg ((c!"description" :: value :: rest) :: ts.filter (wanted b p true)) r =
                  (Event.fromJson P (.cjson td fr) cfg value >>= fun q =>
                    Zap.scanTags P (.cjson td fr) cfg (ts.filter (wanted b p true)) { r with request := some q }) := by
                simp [Zap.scanTags]
              rw [g2]
              simp only [scan, named_cons, decide_true, if_true]
              rw [if_neg (fun h : _ ∧ o.bolt.isSome = true => n1 h.1), if_neg (fun h : _ ∧ o.pre.isSome = true => n2 h.1),
                if_pos (show True ∧ o.req.asked = true from ⟨trivial, hd⟩)]
              simp only [M.bind]
              obtain ⟨q, h', e1, s1, hq⟩ := read_ok hA P td fr cfg grow value h st.own
              simp only [e1, Option.bind_some]
              rcases hq with ⟨x, hx, m1, hv⟩ | ⟨e, hx, he, hv, o1, t1⟩
              · simp only [hx]
                obtain ⟨h2', e2, o2, -⟩ := freeP (h := h') (p := o.bolt.getD none) (b := evs o.req ++ (lt ++ le.flatMap blocks)) (by rw [m1]; exact st.own)
                have hl := held_length o.req
                refine ⟨some x, { o with bolt := o.bolt.map fun _ => none, req := .gone }, h2', by simp only [M.bind, e2, Option.bind_some, M.pure], lt,
                  held o.req ++ le, ?_, hp, rfl, .inr ⟨x, rfl, ?_, ?_, .inl rfl, ?_, ?_, ?_⟩⟩
                · rw [← hb]; cases o.bolt <;> rfl
                · rcases hv with hv | hv
                  · left; rw [hv]; rfl
                  · exact .inr hv
                · cases o.bolt <;> rfl
                · show Owned h0 h2'.mem ([] ++ (lt ++ _))
                  rw [List.flatMap_append, held_blocks]
                  exact o2.perm (by reorder)
                · omega
                · have h5 : nd = 0 → (held o.req).length = 0 := fun h => hl.2.2 (h4.2 h)
                  simp only [List.length_append]
                  omega
              · simp only [hx, he, hv, Res.bind_ok]
                have hl := held_length o.req
                have o2 : Owned h0 h'.mem (texts o.bolt ++ (blocks e ++ (lt ++ (held o.req ++ le).flatMap blocks))) := by
                  rw [List.flatMap_append, held_blocks]
                  exact o1.perm (by reorder)
                have hle : (held o.req ++ le).length = nd + 1 - 1 := by
                  have h5 : nd = 0 ↔ (held o.req).length = 0 := h4.symm.trans hl.2.symm
                  simp only [List.length_append]
                  omega
                obtain ⟨x, o', h'', e2, af⟩ := ih { o with req := .got e q.2.1 } { r with request := some q.2.1 } ni (nd + 1) h' lt (held o.req ++ le) hb hp rfl
                  ⟨o2, by
                      rw [← st.bolt]
                      cases hc : o.bolt.getD none with
                      | none => rfl
                      | some c => exact s1 c (by simp [texts, hc]), rfl, fun e1 v1 hv => by cases hv; exact t1, st.pre, st.room⟩
                  h1 hle h3 (by simp [evs, blocks_ne])
                refine ⟨x, o', h'', e2, ?_⟩
                rw [show nd + (1 + tally (c!"description") ts) = nd + 1 + tally (c!"description") ts by omega]
                simpa using af
          · have hw : wanted b p d (name :: value :: rest) = true := by simp [wanted, named_cons, n1, n2, n3]
            refine skip ?_ (by rw [tally_cons]; simp [named_cons, n1]) (by rw [tally_cons]; simp [named_cons, n3]) ?_
            · simp only [scan, n1, n2, n3, false_and, if_false]
            · rw [List.filter_cons_of_pos hw]; simp only [Zap.scanTags, n1, n2, n3, if_false]

theorem given_some {q : Req} {v : Event} (h : given q = some v) : ∃ e, q = .got e v := by
  cases q <;> simp_all [given]

/-! ## C181 -/

/-- C181 (part): reading a receipt, whatever its tags and whenever memory runs out, if the variables are as they should be. On success the
variables hold the text of the last invoice and the event of the last description; each earlier invoice and each earlier event is lost. On
failure the variable for the invoice is NULL; an event is left in the other one only if memory ran out; earlier ones are lost again. -/
theorem C181_read_partial {A : Alloc} (hA : Fresh A) (P : Plat) (td : Int → Int) (fr : Int → Bytes) (cfg : Option Config.Config)
    (grow : Event → List Bytes → Bool) (amount : Bool) (e : Event) (o : Out) (ho : Ready o) (h : Heap) :
    ∃ x o' n h' lt le, parseReceipt A P cfg grow amount e o h = some ((x, o', n), h') ∧
      ((x = none ∧ ∃ r a, Zap.parseReceipt P (.cjson td fr) cfg (seen e o) = .ok (r, a) ∧ n = (if amount then a else none) ∧
          (o'.bolt.getD none).bind h'.mem = r.bolt11.map .str ∧ given o'.req = r.request ∧ o'.pre.bind (·.2) = r.preimage ∧
          (∀ k v, o'.req = .got k v → k.content.bind h'.mem = v.content.map .str) ∧
          Owned h.mem h'.mem (texts o'.bolt ++ (evs o'.req ++ (lt ++ List.flatMap blocks le))) ∧
          lt.length = tally (c!"bolt11") (seen e o).tags - 1 ∧ le.length = tally (c!"description") (seen e o).tags - 1) ∨
        ∃ y, x = some y ∧
          (Zap.parseReceipt P (.cjson td fr) cfg (seen e o) = .err y ∨ Refused A h.mem ∧ (y = .memory ∨ y = .jsonParse)) ∧
          o'.bolt.getD none = none ∧ (evs o'.req = [] ∨ Refused A h.mem) ∧ Owned h.mem h'.mem (evs o'.req ++ (lt ++ List.flatMap blocks le)) ∧
          lt.length ≤ tally (c!"bolt11") (seen e o).tags - 1 ∧ le.length ≤ tally (c!"description") (seen e o).tags - 1) := by
  unfold parseReceipt Zap.parseReceipt
  have hev : evs o.req = [] := by rcases ho.req with h | h <;> rw [h] <;> rfl
  by_cases hk : e.kind ≠ 9735
  · refine ⟨some .invalidParam, o, none, h, [], [], by rw [if_pos hk]; rfl, .inr ⟨_, rfl, .inl ?_, ho.bolt, .inl hev, ?_, by simp, by simp⟩⟩
    · rw [if_pos (show (seen e o).kind ≠ 9735 from hk)]
    · rw [hev]; exact Owned.nil _
  · rw [if_neg hk, if_neg (show ¬ (seen e o).kind ≠ 9735 from hk)]
    have hg : given o.req = none := by rcases ho.req with h | h <;> rw [h] <;> rfl
    have st : St h.mem h.mem o ⟨none, none, none⟩ [] [] :=
      ⟨by rw [hev]; simp only [texts, ho.bolt]; exact Owned.nil _, by rw [ho.bolt]; rfl, hg, (fun k v hq => by rw [hq] at hg; cases hg),
        (by
          cases hp : o.pre with
          | none => rfl
          | some q => exact (ho.pre q.1 q.2 (by rw [hp])).2), fun n s hn => (ho.pre n s hn).1⟩
    obtain ⟨x, o', h', e1, lt, le, hb, hp, hd, hx⟩ := scan_ok hA P td fr cfg grow e.tags o ⟨none, none, none⟩ 0 0 h [] [] rfl rfl rfl st rfl rfl
      (by simp [texts, ho.bolt]) (by simp [hev])
    rw [← tally_bolt o.bolt.isSome o.pre.isSome o.req.asked, ← tally_description o.bolt.isSome o.pre.isSome o.req.asked] at hx
    simp only [M.bind, e1, Option.bind_some]
    rcases hx with ⟨rfl, r, hv, st', l1, l2⟩ | ⟨y, rfl, hv, hbn, hq, ow, l1, l2⟩
    · have hv' : Zap.scanTags P (.cjson td fr) cfg (seen e o).tags ⟨none, none, none⟩ = .ok r := hv
      have hb' := st'.bolt
      refine ⟨none, o', if amount then r.bolt11.bind Zap.amountOf else none, h', lt, le, ?_, .inl ⟨rfl, r, _, by rw [hv']; rfl, rfl, hb', st'.req,
        st'.pre, st'.ev, st'.own, l1, l2⟩⟩
      cases amount with
      | false => rfl
      | true =>
        match hq : o'.bolt with
        | none => rw [hq] at hb'; cases hr : r.bolt11 <;> simp_all [M.pure]
        | some none => rw [hq] at hb'; cases hr : r.bolt11 <;> simp_all [M.pure]
        | some (some c) =>
          rw [hq] at hb'
          cases hr : r.bolt11 with
          | none =>
            rw [hr] at hb'
            exact absurd hb' (st'.own.live c (by simp [texts, hq]))
          | some s =>
            rw [hr] at hb'
            have hc : h'.mem c = some (.str s) := hb'
            simp [loadStr, hc, M.pure, M.bind]
    · refine ⟨some y, o', none, h', lt, le, by cases amount <;> rfl, .inr ⟨y, rfl, ?_, hbn, hq, ow, l1, l2⟩⟩
      rcases hv with hv | hv
      · left
        have hv' : Zap.scanTags P (.cjson td fr) cfg (seen e o).tags ⟨none, none, none⟩ = .err y := hv
        rw [hv']; rfl
      · exact .inr hv

/-- Releasing what the variables hold. -/
theorem release_ok {h0 : Mem} {h : Heap} {o : Out} {r : List Nat} (hv : ∀ k v, o.req = .got k v → k.content.bind h.mem = v.content.map .str)
    (ow : Owned h0 h.mem (texts o.bolt ++ (evs o.req ++ r))) : ∃ h', release o h = some ((), h') ∧ Owned h0 h'.mem r := by
  unfold release
  simp only [M.bind]
  have key : ∃ h1, o.req.destroy h = some ((), h1) ∧ Owned h0 h1.mem (texts o.bolt ++ r) := by
    cases hq : o.req with
    | got e v =>
      rw [hq] at ow
      exact destroy_ok (c := v.content) ⟨ow.perm (by simp only [evs]; reorder), hv e v hq⟩
    | _ => rw [hq] at ow; exact ⟨h, rfl, ow⟩
  obtain ⟨h1, e1, o1⟩ := key
  obtain ⟨h2, e2, o2, -⟩ := freeP o1
  exact ⟨h2, by rw [e1]; exact e2, o2⟩

/-- C181 (part): if the receipt has at most one invoice and at most one description, and memory suffices, then reading it gives the caller
exactly what the variables hold: once that is released, memory is as it was; and an error leaves memory as it was, and the variable for
the invoice NULL. -/
theorem C181_once_partial {A : Alloc} (hA : Fresh A) (P : Plat) (cfg : Option Config.Config) (grow : Event → List Bytes → Bool) (amount : Bool)
    (e : Event) (o : Out) (ho : Ready o) (h : Heap) (hi : tally (c!"bolt11") e.tags ≤ 1) (hd : tally (c!"description") e.tags ≤ 1)
    (hr : ¬ Refused A h.mem) :
    ∃ x o' n h', parseReceipt A P cfg grow amount e o h = some ((x, o', n), h') ∧
      ((x = none ∧ ∃ h'', release o' h' = some ((), h'') ∧ h''.mem = h.mem) ∨ (x ≠ none ∧ h'.mem = h.mem ∧ o'.bolt.getD none = none)) := by
  have t1 : tally (c!"bolt11") (seen e o).tags ≤ 1 := by
    show tally _ (e.tags.filter _) ≤ 1
    rw [tally_bolt]; split <;> omega
  have t2 : tally (c!"description") (seen e o).tags ≤ 1 := by
    show tally _ (e.tags.filter _) ≤ 1
    rw [tally_description]; split <;> omega
  obtain ⟨x, o', n, h', lt, le, e1, hx⟩ := C181_read_partial hA P id (fun _ => []) cfg grow amount e o ho h
  refine ⟨x, o', n, h', e1, ?_⟩
  rcases hx with ⟨rfl, r, a, -, -, -, -, -, hv, ow, l1, l2⟩ | ⟨y, rfl, -, hb, hq, ow, l1, l2⟩
  · obtain rfl : lt = [] := List.length_eq_zero_iff.1 (by omega)
    obtain rfl : le = [] := List.length_eq_zero_iff.1 (by omega)
    obtain ⟨h2, e2, o2⟩ := release_ok hv ow
    exact .inl ⟨rfl, h2, e2, o2.eq⟩
  · obtain rfl : lt = [] := List.length_eq_zero_iff.1 (by omega)
    obtain rfl : le = [] := List.length_eq_zero_iff.1 (by omega)
    rw [hq.resolve_right hr] at ow
    exact .inr ⟨by simp, ow.eq, hb⟩

/-- Two readings that agree in invoice and request. -/
inductive Same : Res Zap.Receipt → Res Zap.Receipt → Prop
  | ok {a b} : a.bolt11 = b.bolt11 → a.request = b.request → Same (.ok a) (.ok b)
  | err {x} : Same (.err x) (.err x)
  | ub : Same .ub .ub

/-- The preimage does not matter for the invoice and the request. -/
theorem scan_nopre (P : Plat) (b : Build) (cfg : Option Config.Config) : ∀ (ts : List (List Bytes)) (r r' : Zap.Receipt),
    r.bolt11 = r'.bolt11 → r.request = r'.request →
    Same (Zap.scanTags P b cfg (ts.filter (wanted true false true)) r) (Zap.scanTags P b cfg ts r') := by
  intro ts
  induction ts with
  | nil => intro r r' h1 h2; exact .ok h1 h2
  | cons t ts ih =>
    intro r r' h1 h2
    match t with
    | [] => rw [List.filter_cons_of_pos (by simp [wanted, named])]; exact ih r r' h1 h2
    | [a] => rw [List.filter_cons_of_pos (by simp [wanted, named])]; exact ih r r' h1 h2
    | name :: value :: rest =>
      by_cases n2 : name = c!"preimage"
      · subst n2
        rw [List.filter_cons_of_neg (by simp [wanted, named_cons])]
        have : Zap.scanTags P b cfg ((c!"preimage" :: value :: rest) :: ts) r' =
            Zap.scanTags P b cfg ts (if value.length ≤ 64 then { r' with preimage := some value } else r') := by simp [Zap.scanTags]
        rw [this]
        split <;> exact ih _ _ h1 h2
      · rw [List.filter_cons_of_pos (by simp [wanted, named_cons, n2])]
        simp only [Zap.scanTags, n2, if_false]
        split
        · exact ih _ _ rfl h2
        · split
          · cases Event.fromJson P b cfg value with
            | ok q => simp only [Res.bind_ok]; exact ih _ _ h1 rfl
            | err x => exact .err
            | ub => exact .ub
          · exact ih r r' h1 h2

/-- C181 (part): verifying a receipt answers as it should or reports the lack of memory, and if the receipt has at most one invoice and at
most one description and memory suffices, memory is as it was. -/
theorem C181_verify_partial {A : Alloc} (hA : Fresh A) (C : Crypto) (P : Plat) (td : Int → Int) (fr : Int → Bytes) (cfg : Option Config.Config)
    (grow : Event → List Bytes → Bool) (receipt request : Event) (server : Bytes) (h : Heap) :
    ∃ r h' lost, verifyZap A C P td fr cfg grow receipt request server h = some (r, h') ∧ Owned h.mem h'.mem lost ∧
      (r = Zap.verifyZap C P (.cjson td fr) cfg receipt request server ∨ Refused A h.mem ∧ (r = .err .memory ∨ r = .err .jsonParse)) ∧
      (tally (c!"bolt11") receipt.tags ≤ 1 → tally (c!"description") receipt.tags ≤ 1 → ¬ Refused A h.mem → lost = []) := by
  unfold verifyZap Zap.verifyZap
  split
  · exact ⟨_, h, [], rfl, Owned.nil _, .inl rfl, fun _ _ _ => rfl⟩
  cases Hex.keyToHex receipt.pubkey 65 with
  | ub => exact ⟨_, h, [], rfl, Owned.nil _, .inl rfl, fun _ _ _ => rfl⟩
  | err x => exact ⟨_, h, [], rfl, Owned.nil _, .inl rfl, fun _ _ _ => rfl⟩
  | ok hex =>
    simp only [Res.bind_ok]
    split
    · exact ⟨_, h, [], rfl, Owned.nil _, .inl rfl, fun _ _ _ => rfl⟩
    · have hse : (seen receipt ⟨some none, none, .asis⟩).tags = receipt.tags.filter (wanted true false true) := rfl
      obtain ⟨x, o', n, h', lt, le, e1, hx⟩ := C181_read_partial hA P td fr cfg grow true receipt ⟨some none, none, .asis⟩
        ⟨rfl, by simp, .inr rfl⟩ h
      have t1 : tally (c!"bolt11") (receipt.tags.filter (wanted true false true)) = tally (c!"bolt11") receipt.tags := by rw [tally_bolt]; simp
      have t2 : tally (c!"description") (receipt.tags.filter (wanted true false true)) = tally (c!"description") receipt.tags := by
        rw [tally_description]; simp
      have hs : Same (Zap.scanTags P (.cjson td fr) cfg (receipt.tags.filter (wanted true false true)) ⟨none, none, none⟩)
          (Zap.scanTags P (.cjson td fr) cfg receipt.tags ⟨none, none, none⟩) := scan_nopre P _ cfg receipt.tags _ _ rfl rfl
      have hk : ¬ receipt.kind ≠ 9735 := fun hk => by rename_i hn _; exact hn (.inl hk)
      have hz : Zap.parseReceipt P (.cjson td fr) cfg (seen receipt ⟨some none, none, .asis⟩) =
          (Zap.scanTags P (.cjson td fr) cfg (receipt.tags.filter (wanted true false true)) ⟨none, none, none⟩ >>= fun r =>
            .ok (r, r.bolt11.bind Zap.amountOf)) := by
        unfold Zap.parseReceipt; rw [if_neg (show ¬ (seen receipt ⟨some none, none, .asis⟩).kind ≠ 9735 from hk)]; rfl
      rw [hz, hse, t1, t2] at hx
      simp only [M.bind, e1, Option.bind_some]
      unfold Zap.parseReceipt
      rw [if_neg hk]
      rcases hx with ⟨rfl, r, a, hv, rfl, -, hq, -, hev, ow, l1, l2⟩ | ⟨y, rfl, hv, hb, hq, ow, l1, l2⟩
      · generalize Zap.scanTags P (.cjson td fr) cfg (receipt.tags.filter (wanted true false true)) ⟨none, none, none⟩ = v1 at hv hs
        generalize Zap.scanTags P (.cjson td fr) cfg receipt.tags ⟨none, none, none⟩ = v2 at hs
        cases hs with
        | err => cases hv
        | ub => cases hv
        | @ok a b s1 s2 =>
          simp only [Res.bind_ok, Res.ok.injEq, Prod.mk.injEq] at hv
          obtain ⟨rfl, rfl⟩ := hv
          have hlost : tally (c!"bolt11") receipt.tags ≤ 1 → tally (c!"description") receipt.tags ≤ 1 → ¬ Refused A h.mem →
              lt ++ List.flatMap blocks le = [] := by
            intro g1 g2 _
            obtain rfl : lt = [] := List.length_eq_zero_iff.1 (by omega)
            obtain rfl : le = [] := List.length_eq_zero_iff.1 (by omega)
            rfl
          obtain ⟨h2, e2, o2⟩ := release_ok hev ow
          simp only [Res.bind_ok, ← s1, ← s2, ← hq, if_true]
          cases hr : o'.req with
          | got k q =>
            simp only [given]
            split
            · exact ⟨_, h2, _, by simp only [M.bind, e2, Option.bind_some, M.pure], o2, .inl rfl, hlost⟩
            · split
              · exact ⟨_, h2, _, by simp only [M.bind, e2, Option.bind_some, M.pure], o2, .inl rfl, hlost⟩
              · exact ⟨_, h2, _, by simp only [M.bind, e2, Option.bind_some, M.pure], o2, .inl rfl, hlost⟩
          | _ =>
            rw [hr] at ow
            obtain ⟨h3, e3, o3, -⟩ := freeP ow
            exact ⟨.err .invalidEvent, h3, _, by simp only [M.bind, e3, Option.bind_some, M.pure], o3, .inl rfl, hlost⟩
      · refine ⟨.err y, h', _, rfl, ow, ?_, ?_⟩
        · rcases hv with hv | hv
          · left
            generalize Zap.scanTags P (.cjson td fr) cfg (receipt.tags.filter (wanted true false true)) ⟨none, none, none⟩ = v1 at hv hs
            generalize Zap.scanTags P (.cjson td fr) cfg receipt.tags ⟨none, none, none⟩ = v2 at hs
            cases hs with
            | err => cases hv; rfl
            | ub => cases hv
            | ok s1 s2 => cases hv
          · exact .inr ⟨hv.1, by rcases hv.2 with h | h <;> simp [h]⟩
        · intro g1 g2 g3
          obtain rfl : lt = [] := List.length_eq_zero_iff.1 (by omega)
          obtain rfl : le = [] := List.length_eq_zero_iff.1 (by omega)
          rw [hq.resolve_right g3]; rfl

/-! ### What goes wrong -/

theorem tally_replicate (n k : Bytes) (v : Bytes) : ∀ c, tally n (List.replicate c [k, v]) = if k = n then c else 0
  | 0 => by simp [tally]
  | c + 1 => by
    rw [List.replicate_succ, tally_cons, tally_replicate n k v c, named_cons]
    by_cases h : k = n
    · simp [h]; omega
    · simp [h]

/-- A receipt with `n + 1` invoices. -/
def many (n : Nat) : Event := { zero with kind := 9735, tags := List.replicate (n + 1) [c!"bolt11", c!"lnbc20u1pdata"] }

/-- C181 fails: from a receipt with `n + 1` invoices `n` blocks are lost, although memory suffices and the variables are as they should be. A
receipt comes from a relay. -/
theorem C181_lost_refuted (P : Plat) (cfg : Option Config.Config) (grow : Event → List Bytes → Bool) (n : Nat) :
    ∃ o' a h' h'' lost, Ready ⟨some none, none, .asis⟩ ∧
      parseReceipt generous P cfg grow true (many n) ⟨some none, none, .asis⟩ ⟨fun _ => none, 0⟩ = some ((none, o', a), h') ∧
      release o' h' = some ((), h'') ∧ Owned (fun _ => none) h''.mem lost ∧ lost.length = n := by
  have hr : Ready ⟨some none, none, .asis⟩ := ⟨rfl, by simp, .inr rfl⟩
  obtain ⟨x, o', a, h', lt, le, e1, hx⟩ := C181_read_partial generous_fresh P id (fun _ => []) cfg grow true (many n) ⟨some none, none, .asis⟩ hr ⟨fun _ => none, 0⟩
  have ht : (seen (many n) ⟨some none, none, .asis⟩).tags = List.replicate (n + 1) [c!"bolt11", c!"lnbc20u1pdata"] := by
    show List.filter _ (List.replicate _ _) = _
    rw [List.filter_replicate]; rfl
  rw [ht] at hx
  have t1 := tally_replicate (c!"bolt11") (c!"bolt11") (c!"lnbc20u1pdata") (n + 1)
  have t2 := tally_replicate (c!"description") (c!"bolt11") (c!"lnbc20u1pdata") (n + 1)
  rw [if_pos rfl] at t1
  rw [if_neg (by decide)] at t2
  rw [t1, t2] at hx
  have hn : ¬ Refused generous (fun _ => none : Mem) := generous_never (live := []) (fun _ _ => rfl)
  rcases hx with ⟨rfl, r, a', -, -, -, -, -, hv, ow, l1, l2⟩ | ⟨y, rfl, hv, hb, hq, ow, l1, l2⟩
  · obtain rfl : le = [] := List.length_eq_zero_iff.1 (by omega)
    obtain ⟨h2, e2, o2⟩ := release_ok hv ow
    exact ⟨o', a, h', h2, _, hr, e1, e2, o2, by simp; omega⟩
  · exfalso
    rcases hv with hv | hv
    · have : ∀ c r, ∃ r', Zap.scanTags P (.cjson id fun _ => []) cfg (List.replicate c [c!"bolt11", c!"lnbc20u1pdata"]) r = .ok r' := by
        intro c
        induction c with
        | zero => intro r; exact ⟨r, rfl⟩
        | succ c ih => intro r; exact ih { r with bolt11 := some (c!"lnbc20u1pdata") }
      obtain ⟨r', hr'⟩ := this (n + 1) ⟨none, none, none⟩
      unfold Zap.parseReceipt at hv
      rw [if_neg (by simp [seen, many]), ht, hr'] at hv
      cases hv
    · exact hn hv.1

/-- C181 fails: if the description is not the text of an event, what the variable for the invoice held before the call is released: a
variable that has not been set leads to undefined behaviour, and one with an older invoice loses it. -/
theorem C181_unset_refuted {A : Alloc} (P : Plat) (cfg : Option Config.Config) (grow : Event → List Bytes → Bool) (amount : Bool) (h : Heap) (a : Nat) :
    let e : Event := { zero with kind := 9735, tags := [[c!"description", c!"?"], [c!"bolt11", c!"lnbc20u1pdata"]] };
    parseReceipt A P cfg grow amount e ⟨some (some a), none, .asis⟩ h =
      if (h.mem a).isSome then some ((some .jsonParse, ⟨some none, none, .gone⟩, none), ⟨upd h.mem a none, h.tick⟩) else none := by
  have hp : Json.parse (c!"?") = none := by decide +kernel
  have hf : fromJson A P cfg grow (c!"?") = M.pure (some .jsonParse, zero, none) := by unfold Ev.fromJson; rw [hp]
  intro e
  have h1 : scan A P cfg grow e.tags ⟨some (some a), none, .asis⟩ h =
      if (h.mem a).isSome then some ((some .jsonParse, ⟨some none, none, .gone⟩), ⟨upd h.mem a none, h.tick⟩) else none := by
    simp only [e, scan]
    rw [if_neg (by simp), if_neg (by simp), if_pos (by simp [Req.asked]), hf]
    simp only [M.bind, M.pure, Option.bind_some, Option.getD_some, free]
    cases h.mem a <;> rfl
  unfold parseReceipt
  rw [if_neg (by simp [e])]
  simp only [M.bind, h1]
  cases h.mem a <;> cases amount <;> rfl

/-- C181 fails: for a receipt without an invoice, the amount of the invoice that the variable held before is reported. -/
theorem C181_stale_refuted {A : Alloc} (P : Plat) (cfg : Option Config.Config) (grow : Event → List Bytes → Bool) (h : Heap) (a : Nat) (s : Bytes)
    (ha : h.mem a = some (.str s)) :
    parseReceipt A P cfg grow true { zero with kind := 9735 } ⟨some (some a), none, .asis⟩ h =
      some ((none, ⟨some (some a), none, .asis⟩, Zap.amountOf s), h) := by
  simp [parseReceipt, scan, M.bind, M.pure, loadStr, ha, zero]

/-- C181 fails: a preimage of 64 digits needs 65 bytes, and the header tells the caller to provide 64. -/
theorem C181_buffer_refuted {A : Alloc} (P : Plat) (cfg : Option Config.Config) (grow : Event → List Bytes → Bool) (amount : Bool) (h : Heap) (v : Bytes)
    (hv : v.length = 64) (o : Out) (ho : o.pre = some (64, none)) :
    parseReceipt A P cfg grow amount { zero with kind := 9735, tags := [[c!"preimage", v]] } o h = none := by
  simp [parseReceipt, scan, M.bind, putPre, hv, ho, zero]

/-- C181 fails: without memory for the copy of an invoice that comes after the description, the call reports the error and leaves the event of the
description in the caller's variable; its three blocks stay. -/
theorem C181_memory_refuted : ∃ (A : Alloc) (P : Plat) (cfg : Option Config.Config) (grow : Event → List Bytes → Bool) (e : Event) (o' : Out) (h' : Heap),
    Fresh A ∧ parseReceipt A P cfg grow true e ⟨some none, none, .asis⟩ ⟨fun _ => none, 0⟩ = some ((some .memory, o', none), h') ∧
      evs o'.req = [103, 102, 101] ∧ h'.mem 101 ≠ none ∧ h'.mem 102 ≠ none ∧ h'.mem 103 ≠ none :=
  ⟨Filter.Props.failAt 4, ⟨fun _ => 0, false⟩, none, fun _ _ => true,
    { zero with kind := 9735, tags := [[c!"description", c!"{}"], [c!"bolt11", c!"lnbc20u1pdata"]] }, _, _, failAt_fresh 4, rfl, rfl, by decide +kernel⟩

/-- A receipt with an invoice, a preimage and a description: the copy is block 100, the event blocks 102 to 104 (101 was the tree), the amount 20
micro-bitcoin. -/
example : (parseReceipt (Filter.Props.failAt 99) ⟨fun _ => 0, false⟩ none (fun _ _ => true) true { zero with kind := 9735, tags :=
      [[c!"p", c!"x"], [c!"bolt11", c!"lnbc20u1pdata"], [c!"preimage", c!"ab"], [c!"description", c!"{\"kind\":9734}"]] }
      ⟨some none, some (65, none), .asis⟩ ⟨fun _ => none, 0⟩).map (fun r => (r.1.1, texts r.1.2.1.bolt ++ evs r.1.2.1.req, r.1.2.2)) =
    some (none, [100, 104, 103, 102], some 2000000) := by decide +kernel
example : Ready ⟨some none, some (65, none), .asis⟩ := ⟨rfl, by simp, .inr rfl⟩
example : tally (c!"bolt11") [[c!"p", c!"x"], [c!"bolt11", c!"lnbc20u1pdata"], [c!"bolt11"]] = 1 := by decide
example : ¬ Refused generous (fun _ => none : Mem) := generous_never (live := []) (fun _ _ => rfl)
/-- The older invoice is 20 micro-bitcoin; the receipt has none. -/
example : (parseReceipt generous ⟨fun _ => 0, false⟩ none (fun _ _ => true) true { zero with kind := 9735 } ⟨some (some 1), none, .asis⟩
    ⟨fun a => if a = 1 then some (.str c!"lnbc20u1pdata") else none, 100⟩).map (fun r => (r.1.1, r.1.2.2)) = some (none, some 2000000) := by decide +kernel

/-- Verifying the sample receipt (`Verif/Zap/Props.lean`) with the blocks. -/
example : (match Zap.Props.sampleReceipt with
    | .ok r => (verifyZap (Filter.Props.failAt 99) Nostr.Event.Props.toyCrypto ⟨fun _ => 0, false⟩ id (fun _ => []) none (fun _ _ => true) r Zap.Props.sampleRequest
        (c!"0707070707070707070707070707070707070707070707070707070707070707") ⟨fun _ => none, 0⟩).map (fun x => (x.1, (List.range 20).all fun i => (x.2.mem (100 + i)).isNone))
    | _ => none) = some (.ok (), true) := by decide +kernel

end Nostr.Own.Receipt.Props
