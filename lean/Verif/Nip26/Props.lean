import Verif.Nip26.Model
import Verif.Nip26.Spec
import Verif.Hex.Props
import Verif.Event.Props
import Verif.Nip10.Props

/-! # Property theorems: C55, C56 -/

namespace Nostr.Nip26
open Nostr Nostr.Event Nostr.Nip26.Spec

/-! ## Numbers -/

theorem mem_while {p : UInt8 → Bool} {s : Bytes} {c : UInt8} (h : c ∈ s.takeWhile p) : p c = true := by
  induction s with
  | nil => simp at h
  | cons b s ih =>
    rw [List.takeWhile_cons] at h
    split at h
    · rename_i hb
      rcases List.mem_cons.1 h with rfl | h
      · exact hb
      · exact ih h
    · simp at h

theorem while_split (p : UInt8 → Bool) (s : Bytes) : ∃ a b, s = a ++ b ∧ (∀ c ∈ a, p c = true) ∧ s.takeWhile p = a ∧ s.dropWhile p = b :=
  ⟨s.takeWhile p, s.dropWhile p, List.takeWhile_append_dropWhile.symm, fun _ hc => mem_while hc, rfl, rfl⟩

/-- What the number scanner consumed. -/
theorem scan_split {s rest : Bytes} {neg : Bool} {m : Nat} (h : Num.scanDec s = some (neg, m, rest)) :
    ∃ t, s = t ++ rest ∧ Numeral t (if neg then -(m : Int) else m) := by
  obtain ⟨ws, u, rfl, hws, -, hd⟩ := while_split Num.isSpace s
  unfold Num.scanDec at h
  simp only at h
  rw [hd] at h
  have key : ∀ v : Bytes, v.takeWhile Num.isDigit ≠ [] → ∃ ds, v = ds ++ v.dropWhile Num.isDigit ∧ ds ≠ [] ∧ (∀ c ∈ ds, Num.isDigit c = true) ∧
      Num.natOf (v.takeWhile Num.isDigit) = Num.natOf ds :=
    fun v hv => ⟨v.takeWhile Num.isDigit, List.takeWhile_append_dropWhile.symm, hv, fun c hc => mem_while hc, rfl⟩
  cases u with
  | nil => simp at h
  | cons b u =>
    by_cases hm : b = 0x2d
    · subst hm
      simp only [List.head?_cons, beq_self_eq_true, Bool.true_or, if_true, List.tail_cons] at h
      split at h
      · simp at h
      rename_i hne
      obtain ⟨ds, h1, h2, h3, h4⟩ := key u hne
      simp only [Option.some.injEq, Prod.mk.injEq] at h
      obtain ⟨rfl, rfl, rfl⟩ := h
      refine ⟨ws ++ c!"-" ++ ds, ?_, ws, ds, hws, h2, h3, .inr (.inr ⟨rfl, by rw [h4]; rfl⟩)⟩
      conv => lhs; rw [h1]
      simp
    · by_cases hp : b = 0x2b
      · subst hp
        simp only [List.head?_cons, beq_self_eq_true, Bool.or_true, if_true, List.tail_cons] at h
        split at h
        · simp at h
        rename_i hne
        obtain ⟨ds, h1, h2, h3, h4⟩ := key u hne
        simp only [Option.some.injEq, Prod.mk.injEq] at h
        obtain ⟨rfl, rfl, rfl⟩ := h
        refine ⟨ws ++ c!"+" ++ ds, ?_, ws, ds, hws, h2, h3, .inr (.inl ⟨rfl, by rw [h4]; rfl⟩)⟩
        conv => lhs; rw [h1]
        simp
      · have e1 : ((some b == some (0x2d : UInt8)) = false) := by simp [hm]
        have e2 : ((some b == some (0x2b : UInt8)) = false) := by simp [hp]
        simp only [List.head?_cons, e1, e2, Bool.or_self, Bool.false_eq_true, if_false] at h
        split at h
        · simp at h
        rename_i hne
        obtain ⟨ds, h1, h2, h3, h4⟩ := key (b :: u) hne
        simp only [Option.some.injEq, Prod.mk.injEq] at h
        obtain ⟨rfl, rfl, rfl⟩ := h
        refine ⟨ws ++ ds, ?_, ws, ds, hws, h2, h3, .inl ⟨rfl, by rw [h4]; rfl⟩⟩
        conv => lhs; rw [h1]
        simp

theorem kindNum_split {p rest : Bytes} {k : Nat} (h : kindNum p = some (k, rest)) :
    ∃ t v, p = t ++ rest ∧ Numeral t v ∧ -2 ^ 64 < v ∧ v < 2 ^ 64 ∧ (k : Int) = v % 2 ^ 64 ∧ k ≤ 65535 := by
  unfold kindNum at h
  cases hs : Num.scanDec p with
  | none => simp [hs] at h
  | some x =>
    obtain ⟨neg, m, r⟩ := x
    simp only [hs] at h
    obtain ⟨t, h1, h2⟩ := scan_split hs
    cases neg <;> simp only [Bool.false_eq_true, if_false, if_true] at h h2 <;>
    · split at h
      · cases h
      rename_i h64
      split at h
      · cases h
      rename_i hk
      simp only [Option.some.injEq, Prod.mk.injEq] at h
      obtain ⟨rfl, rfl⟩ := h
      exact ⟨t, _, h1, h2, by omega, by omega, by omega, by omega⟩

theorem timeNum_split {p rest : Bytes} {v : Int} (h : timeNum p = some (v, rest)) :
    ∃ t, p = t ++ rest ∧ Numeral t v ∧ -2 ^ 63 ≤ v ∧ v < 2 ^ 63 := by
  unfold timeNum at h
  cases hs : Num.scanDec p with
  | none => simp [hs] at h
  | some x =>
    obtain ⟨neg, m, r⟩ := x
    simp only [hs] at h
    obtain ⟨t, h1, h2⟩ := scan_split hs
    cases neg <;> simp only [Bool.false_eq_true, if_false, if_true] at h h2 <;>
    · split at h
      · cases h
      simp only [Option.some.injEq, Prod.mk.injEq] at h
      obtain ⟨rfl, rfl⟩ := h
      exact ⟨t, h1, h2, by omega, by omega⟩

/-! ## The parser -/

/-- Effect of one clause on the parsed conditions. -/
def apply (c : Cond) : Clause → Cond
  | .kind k => { c with kinds := c.kinds ++ [k] }
  | .after t => { c with after := some t }
  | .before t => { c with before := some t }

theorem clause_split {p rest : Bytes} {c c' : Cond} (h : clause p c = some (c', rest)) :
    ∃ t cl, p = t ++ rest ∧ Spelled t cl ∧ c' = apply c cl := by
  unfold clause at h
  split at h
  · rename_i h5
    cases hk : kindNum (p.drop 5) with
    | none => simp [hk] at h
    | some x =>
      obtain ⟨k, r⟩ := x
      simp only [hk] at h
      split at h
      · simp at h
      simp only [Option.some.injEq, Prod.mk.injEq] at h
      obtain ⟨rfl, rfl⟩ := h
      obtain ⟨t, v, h1, h2, h3⟩ := kindNum_split hk
      refine ⟨c!"kind=" ++ t, .kind k, ?_, ⟨t, v, rfl, h2, h3⟩, rfl⟩
      rw [← List.take_append_drop 5 p, h5, h1, List.append_assoc]
  · split at h
    · rename_i h5
      cases hk : timeNum (p.drop 11) with
      | none => simp [hk] at h
      | some x =>
        obtain ⟨k, r⟩ := x
        simp only [hk, Option.some.injEq, Prod.mk.injEq] at h
        obtain ⟨rfl, rfl⟩ := h
        obtain ⟨t, h1, h2, h3⟩ := timeNum_split hk
        refine ⟨c!"created_at>" ++ t, .after k, ?_, ⟨t, rfl, h2, h3⟩, rfl⟩
        rw [← List.take_append_drop 11 p, h5, h1, List.append_assoc]
    · split at h
      · rename_i h5
        cases hk : timeNum (p.drop 11) with
        | none => simp [hk] at h
        | some x =>
          obtain ⟨k, r⟩ := x
          simp only [hk, Option.some.injEq, Prod.mk.injEq] at h
          obtain ⟨rfl, rfl⟩ := h
          obtain ⟨t, h1, h2, h3⟩ := timeNum_split hk
          refine ⟨c!"created_at<" ++ t, .before k, ?_, ⟨t, rfl, h2, h3⟩, rfl⟩
          rw [← List.take_append_drop 11 p, h5, h1, List.append_assoc]
      · simp at h

theorem loop_sound : ∀ (fuel : Nat) (s : Bytes) (c c' : Cond) (n n' : Nat), loop fuel s c n = some (c', n') →
    ∃ cs, Reads s cs ∧ c' = cs.foldl apply c ∧ n' = n + cs.length := by
  intro fuel
  induction fuel with
  | zero =>
    intro s c c' n n' h
    cases s with
    | nil =>
      simp only [loop, Option.some.injEq, Prod.mk.injEq] at h
      exact ⟨[], .done [] (by simp), h.1.symm, h.2.symm⟩
    | cons b s => simp [loop] at h
  | succ fuel ih =>
    intro s c c' n n' h
    cases s with
    | nil =>
      simp only [loop, Option.some.injEq, Prod.mk.injEq] at h
      exact ⟨[], .done [] (by simp), h.1.symm, h.2.symm⟩
    | cons b s =>
      unfold loop at h
      obtain ⟨amps, u, hu, ha, -, hd⟩ := while_split (· == 0x26) (b :: s)
      have ha' : ∀ c ∈ amps, c = 0x26 := fun c hc => by simpa using ha c hc
      rw [hd] at h
      rw [hu]
      cases u with
      | nil =>
        simp only [Option.some.injEq, Prod.mk.injEq] at h
        exact ⟨[], by rw [List.append_nil]; exact .done amps ha', h.1.symm, h.2.symm⟩
      | cons d p =>
        simp only at h
        cases hc : clause (d :: p) c with
        | none => simp [hc] at h
        | some x =>
          obtain ⟨c1, rest⟩ := x
          simp only [hc] at h
          obtain ⟨t, cl, h1, h2, rfl⟩ := clause_split hc
          obtain ⟨cs, k1, k2, k3⟩ := ih _ _ _ _ _ h
          refine ⟨cl :: cs, ?_, k2, by rw [k3, List.length_cons]; omega⟩
          rw [h1, ← List.append_assoc]
          exact .cons amps t rest cl cs ha' h2 k1

theorem stop_amp {rest : Bytes} (hr : rest.head? = none ∨ rest.head? = some 0x26) : ∀ c, rest.head? = some c → Num.isDigit c = false := by
  intro c hc
  rcases hr with h | h
  · rw [h] at hc; cases hc
  · rw [h] at hc; cases hc; decide

theorem timeNum_text {t : Int} {rest : Bytes} (h : -2 ^ 63 ≤ t ∧ t < 2 ^ 63) (hr : rest.head? = none ∨ rest.head? = some 0x26) :
    timeNum (Num.decInt t ++ rest) = some (t, rest) := by
  unfold timeNum Num.decInt
  by_cases hi : t < 0
  · rw [if_pos hi, Num.scanDec_minus (stop_amp hr)]
    have : -(t.natAbs : Int) = t := by omega
    simp only [this, if_true]
    rw [if_neg (by omega)]
  · rw [if_neg hi, Num.scanDec_decNat (stop_amp hr)]
    have : (t.natAbs : Int) = t := by omega
    simp only [this, Bool.false_eq_true, if_false]
    rw [if_neg (by omega)]

theorem kindNum_text {k : Nat} {rest : Bytes} (h : k ≤ 65535) (hr : rest.head? = none ∨ rest.head? = some 0x26) :
    kindNum (Num.decNat k ++ rest) = some (k, rest) := by
  unfold kindNum
  rw [Num.scanDec_decNat (stop_amp hr)]
  simp only [Bool.false_eq_true, if_false]
  rw [if_neg (by omega), if_neg (by omega)]

theorem clause_text {cl : Clause} {rest : Bytes} {c : Cond} (h : cl.InRange) (hr : rest.head? = none ∨ rest.head? = some 0x26)
    (hk : c.kinds.length < 256) : clause (cl.text ++ rest) c = some (apply c cl, rest) := by
  cases cl with
  | kind k =>
    have := kindNum_text (rest := rest) h hr
    unfold clause Clause.text
    rw [List.append_assoc, if_pos (by simp), show (c!"kind=" ++ (Num.decNat k ++ rest)).drop 5 = Num.decNat k ++ rest from by simp, this]
    simp only
    rw [if_neg (by omega)]
    rfl
  | after t =>
    have := timeNum_text (rest := rest) h hr
    unfold clause Clause.text
    rw [List.append_assoc, if_neg (by simp), if_pos (by simp),
      show (c!"created_at>" ++ (Num.decInt t ++ rest)).drop 11 = Num.decInt t ++ rest from by simp, this]
    rfl
  | before t =>
    have := timeNum_text (rest := rest) h hr
    unfold clause Clause.text
    rw [List.append_assoc, if_neg (by simp), if_neg (by simp), if_pos (by simp),
      show (c!"created_at<" ++ (Num.decInt t ++ rest)).drop 11 = Num.decInt t ++ rest from by simp, this]
    rfl

theorem text_head (cl : Clause) : ∃ b t, cl.text = b :: t ∧ b ≠ 0x26 := by
  cases cl with
  | kind k => exact ⟨0x6b, _, rfl, by decide⟩
  | after t => exact ⟨0x63, _, rfl, by decide⟩
  | before t => exact ⟨0x63, _, rfl, by decide⟩

/-- The clauses behind the first one. -/
def tails (cs : List Clause) : Bytes := cs.flatMap fun c => c!"&" ++ c.text

theorem text_cons (c : Clause) (cs : List Clause) : text (c :: cs) = c.text ++ tails cs := by
  induction cs generalizing c with
  | nil => simp [text, tails]
  | cons d cs ih => rw [text, ih d]; simp [tails]

theorem tails_head (cs : List Clause) : (tails cs).head? = none ∨ (tails cs).head? = some 0x26 := by
  cases cs with
  | nil => exact .inl rfl
  | cons c cs => exact .inr rfl

theorem loop_amp (fuel : Nat) (s : Bytes) (c : Cond) (n : Nat) (b : UInt8) (t : Bytes) (hs : s = b :: t) (hb : b ≠ 0x26) :
    loop (fuel + 1) (c!"&" ++ s) c n = loop (fuel + 1) s c n := by
  subst hs
  have e : (c!"&" ++ b :: t) = 0x26 :: b :: t := rfl
  rw [e, loop, loop]
  have h1 : (0x26 :: b :: t).dropWhile (· == 0x26) = b :: t := by simp [hb]
  have h2 : (b :: t).dropWhile (· == 0x26) = b :: t := by simp [hb]
  rw [h1, h2]

theorem apply_kinds (c : Cond) (cl : Clause) : (apply c cl).kinds.length ≤ c.kinds.length + 1 := by
  cases cl <;> simp [apply]

theorem loop_text : ∀ (cs : List Clause) (cl : Clause) (fuel : Nat) (c : Cond) (n : Nat), cl.InRange → (∀ x ∈ cs, x.InRange) →
    cs.length + 1 ≤ fuel → c.kinds.length + cs.length < 256 →
    loop fuel (cl.text ++ tails cs) c n = some ((cl :: cs).foldl apply c, n + cs.length + 1) := by
  intro cs
  induction cs with
  | nil =>
    intro cl fuel c n hr _ hf hk
    obtain ⟨f, rfl⟩ : ∃ f, fuel = f + 1 := ⟨fuel - 1, by simp at hf; omega⟩
    obtain ⟨b, t, hb, hn⟩ := text_head cl
    have h1 := clause_text (rest := tails []) hr (tails_head []) (c := c) (by simpa using hk)
    have e : cl.text ++ tails [] = b :: (t ++ tails []) := by rw [hb]; rfl
    rw [e] at h1 ⊢
    rw [loop]
    have h2 : (b :: (t ++ tails [])).dropWhile (· == 0x26) = b :: (t ++ tails []) := by simp [hn]
    rw [h2]
    simp only [h1]
    simp [tails, loop]
  | cons d cs ih =>
    intro cl fuel c n hr hrs hf hk
    simp only [List.length_cons] at hf hk
    obtain ⟨f, rfl⟩ : ∃ f, fuel = f + 1 + 1 := ⟨fuel - 2, by omega⟩
    obtain ⟨b, t, hb, hn⟩ := text_head cl
    have h1 := clause_text (rest := tails (d :: cs)) hr (tails_head (d :: cs)) (c := c) (by omega)
    have e : cl.text ++ tails (d :: cs) = b :: (t ++ tails (d :: cs)) := by rw [hb]; rfl
    rw [e] at h1 ⊢
    rw [loop]
    have h2 : (b :: (t ++ tails (d :: cs))).dropWhile (· == 0x26) = b :: (t ++ tails (d :: cs)) := by simp [hn]
    rw [h2]
    simp only [h1]
    have e2 : tails (d :: cs) = c!"&" ++ (d.text ++ tails cs) := by simp [tails]
    obtain ⟨b', t', hb', hn'⟩ := text_head d
    rw [e2, loop_amp f (d.text ++ tails cs) (apply c cl) (n + 1) b' (t' ++ tails cs) (by rw [hb']; rfl) hn',
      ih d (f + 1) (apply c cl) (n + 1) (hrs d (by simp)) (fun x hx => hrs x (by simp [hx])) (by omega)
        (by have := apply_kinds c cl; omega)]
    simp only [List.foldl_cons, List.length_cons, Option.some.injEq, Prod.mk.injEq, true_and]
    omega

/-! ## What the parsed conditions say -/

def afters (cs : List Clause) : List Int := cs.filterMap fun | .after t => some t | _ => none
def befores (cs : List Clause) : List Int := cs.filterMap fun | .before t => some t | _ => none
def kindsOf (cs : List Clause) : List Nat := cs.filterMap fun | .kind k => some k | _ => none

theorem fold_apply : ∀ (cs : List Clause) (c : Cond), cs.foldl apply c =
    ⟨c.kinds ++ kindsOf cs, ((afters cs).getLast?).or c.after, ((befores cs).getLast?).or c.before⟩ := by
  intro cs
  induction cs with
  | nil => intro c; simp [kindsOf, afters, befores]
  | cons cl cs ih =>
    intro c
    rw [List.foldl_cons, ih]
    cases cl with
    | kind k => simp [apply, kindsOf, afters, befores]
    | after t =>
      have : afters (.after t :: cs) = t :: afters cs := rfl
      simp only [apply, this, kindsOf, befores, List.filterMap_cons]
      cases h : afters cs <;> simp [List.getLast?_cons]
    | before t =>
      have : befores (.before t :: cs) = t :: befores cs := rfl
      simp only [apply, this, kindsOf, afters, List.filterMap_cons]
      cases h : befores cs <;> simp [List.getLast?_cons]

theorem mem_afters {cs : List Clause} {t : Int} : t ∈ afters cs ↔ Clause.after t ∈ cs := by
  unfold afters
  rw [List.mem_filterMap]
  constructor
  · rintro ⟨a, h1, h2⟩
    split at h2
    · simp only [Option.some.injEq] at h2; subst h2; exact h1
    · cases h2
  · intro h; exact ⟨_, h, rfl⟩

theorem mem_befores {cs : List Clause} {t : Int} : t ∈ befores cs ↔ Clause.before t ∈ cs := by
  unfold befores
  rw [List.mem_filterMap]
  constructor
  · rintro ⟨a, h1, h2⟩
    split at h2
    · simp only [Option.some.injEq] at h2; subst h2; exact h1
    · cases h2
  · intro h; exact ⟨_, h, rfl⟩

theorem mem_kinds {cs : List Clause} {t : Nat} : t ∈ kindsOf cs ↔ Clause.kind t ∈ cs := by
  unfold kindsOf
  rw [List.mem_filterMap]
  constructor
  · rintro ⟨a, h1, h2⟩
    split at h2
    · simp only [Option.some.injEq] at h2; subst h2; exact h1
    · cases h2
  · intro h; exact ⟨_, h, rfl⟩

theorem single_after : ∀ cs : List Clause, cs.countP Clause.isAfter = (afters cs).length := by
  intro cs
  induction cs with
  | nil => rfl
  | cons c cs ih => cases c <;> simp_all [afters, Clause.isAfter, List.countP_cons]

theorem single_before : ∀ cs : List Clause, cs.countP Clause.isBefore = (befores cs).length := by
  intro cs
  induction cs with
  | nil => rfl
  | cons c cs ih => cases c <;> simp_all [befores, Clause.isBefore, List.countP_cons]

theorem last_of_single {l : List Int} (h : l.length ≤ 1) (t : Int) : l.getLast? = some t ↔ t ∈ l := by
  match l, h with
  | [], _ => simp
  | [a], _ => simp [eq_comm]

theorem check_iff (d : Delegation) (kind : Nat) (time : Int) : check d kind time = .ok () ↔
    (d.parsed.kinds ≠ [] → kind ∈ d.parsed.kinds) ∧ (∀ t, d.parsed.after = some t → t < time) ∧ (∀ t, d.parsed.before = some t → time < t) := by
  obtain ⟨_, _, _, ks, a, b⟩ := d
  unfold check kindAllowed
  simp only
  have hk : ((if ks.length = 0 then true else ks.any (· == kind)) = true) ↔ (ks ≠ [] → kind ∈ ks) := by
    cases ks with
    | nil => simp
    | cons k ks =>
      rw [if_neg (by simp), List.any_eq_true]
      constructor
      · rintro ⟨x, hx, he⟩ _
        rw [beq_iff_eq] at he
        exact he ▸ hx
      · intro h
        exact ⟨kind, h (by simp), by simp⟩
  have ha : (a.any (fun t => decide (time ≤ t)) = false) ↔ ∀ t, a = some t → t < time := by cases a <;> simp
  have hb : (b.any (fun t => decide (time ≥ t)) = false) ↔ ∀ t, b = some t → time < t := by cases b <;> simp
  rw [← hk, ← ha, ← hb]
  cases (if ks.length = 0 then true else ks.any (· == kind)) <;> cases a.any (fun t => decide (time ≤ t)) <;>
    cases b.any (fun t => decide (time ≥ t)) <;> simp

theorem check_allows {cs : List Clause} (h : SingleBounds cs) (d : Delegation) (hd : d.parsed = cs.foldl apply ⟨[], none, none⟩)
    (kind : Nat) (time : Int) : check d kind time = .ok () ↔ Allows cs kind time := by
  rw [check_iff, hd, fold_apply]
  simp only [List.nil_append, Option.or_none]
  unfold SingleBounds at h
  rw [single_after, single_before] at h
  simp only [last_of_single h.1, last_of_single h.2, mem_afters, mem_befores, mem_kinds]
  unfold Allows
  have : kindsOf cs ≠ [] ↔ ∃ k, Clause.kind k ∈ cs := by
    constructor
    · intro hne
      obtain ⟨k, hk⟩ := List.exists_mem_of_ne_nil _ hne
      exact ⟨k, mem_kinds.1 hk⟩
    · rintro ⟨k, hk⟩ h0
      have := mem_kinds.2 hk
      rw [h0] at this
      simp at this
  rw [this]

/-! ## Signed text -/

theorem digest_eq (C : Crypto) {pk cond : Bytes} (hp : pk.length = 32) (hc : cond.length ≤ 4096) :
    digest C pk cond = .ok (C.sha256 (signedText pk cond)) := by
  unfold digest
  rw [if_neg (by omega), Hex.hexEncode_eq]
  have : (c!"nostr:delegation:" ++ Hex.Spec.hexText pk ++ c!":" ++ cond).length = 17 + 64 + 1 + cond.length := by
    simp only [List.length_append, Hex.hexText_length, hp]
    rfl
  rw [List.take_of_length_le (by omega)]
  rfl

theorem signedText_inj {a b x y : Bytes} (ha : a.length = b.length) (h : signedText a x = signedText b y) : a = b ∧ x = y := by
  unfold signedText at h
  have hl : (c!"nostr:delegation:" ++ Hex.Spec.hexText a ++ c!":").length = (c!"nostr:delegation:" ++ Hex.Spec.hexText b ++ c!":").length := by
    simp only [List.length_append, Hex.hexText_length, ha]
  obtain ⟨h1, h2⟩ := List.append_inj h hl
  have h3 := (List.append_inj' h1 rfl).1
  exact ⟨Hex.hexText_inj (List.append_cancel_left h3), h2⟩

end Nostr.Nip26

namespace Nostr.Nip26.Props
open Nostr Nostr.Event Nostr.Nip26 Nostr.Nip26.Spec
open Nostr.Event.Props (toyCrypto)

/-! ## C55 -/

/-- **C55** for condition strings as NIP-26 writes them (up to 100 clauses) with at most one lower and one upper time bound:
the string is accepted, and the check accepts an event exactly when every clause allows it. Missing: repeated bounds, see
`C55_repeated_refuted`. -/
theorem C55_wellformed_partial (cs : List Clause) (hne : cs ≠ []) (hr : ∀ c ∈ cs, c.InRange) (hl : cs.length ≤ 100)
    (hs : SingleBounds cs) :
    ∃ c, parseConditions (text cs) = some c ∧
      ∀ (d : Delegation), d.parsed = c → ∀ kind time, check d kind time = .ok () ↔ Allows cs kind time := by
  obtain ⟨cl, cs, rfl⟩ := List.exists_cons_of_ne_nil hne
  have h := loop_text cs cl 100 ⟨[], none, none⟩ 0 (hr cl (by simp)) (fun x hx => hr x (by simp [hx]))
    (by simpa using hl) (by simp only [List.length_cons] at hl; simp; omega)
  refine ⟨(cl :: cs).foldl apply ⟨[], none, none⟩, ?_, fun d hd kind time => check_allows hs d hd kind time⟩
  unfold parseConditions
  obtain ⟨b, t, hb, -⟩ := text_head cl
  rw [text_cons, if_neg (by rw [hb]; simp), h]
  simp

/-- **C55** for every condition string that is accepted at all: it consists of clauses (in a lax spelling), and if these name at
most one lower and one upper time bound, the check accepts an event exactly when every clause allows it. -/
theorem C55_accepted_partial (s : Bytes) (c : Cond) (h : parseConditions s = some c) :
    ∃ cs, cs ≠ [] ∧ Reads s cs ∧ (SingleBounds cs →
      ∀ (d : Delegation), d.parsed = c → ∀ kind time, check d kind time = .ok () ↔ Allows cs kind time) := by
  unfold parseConditions at h
  split at h
  · cases h
  cases hl : loop 100 s ⟨[], none, none⟩ 0 with
  | none => simp [hl] at h
  | some x =>
    obtain ⟨c', n⟩ := x
    simp only [hl] at h
    split at h
    · cases h
    rename_i hn
    simp only [Option.some.injEq] at h
    subst h
    obtain ⟨cs, h1, h2, h3⟩ := loop_sound _ _ _ _ _ _ hl
    refine ⟨cs, ?_, h1, fun hs d hd => check_allows hs d (hd.trans h2)⟩
    rintro rfl
    simp at h3
    exact hn h3

/-- C55 is false for repeated bounds: the last one replaces the others, also where that widens the delegation. -/
theorem C55_repeated_refuted : ∃ c, parseConditions (text [.after 2000, .after 10]) = some c ∧
    ∀ d : Delegation, d.parsed = c → check d 1 1000 = .ok () ∧ ¬ Allows [.after 2000, .after 10] 1 1000 := by
  refine ⟨⟨[], some 10, none⟩, by decide +kernel, ?_⟩
  rintro ⟨_, _, _, _⟩ rfl
  exact ⟨rfl, fun h => absurd (h.2.1 2000 (by simp)) (by decide)⟩

/-- A negative number is accepted as a kind modulo 2^64. -/
theorem C55_negative_kind_refuted : parseConditions (c!"kind=-18446744073709551615") = some ⟨[1], none, none⟩ := by
  decide +kernel

example : text [.kind 1, .kind 7, .after 100, .before 200] = c!"kind=1&kind=7&created_at>100&created_at<200" ∧
    Allows [.kind 1, .kind 7, .after 100, .before 200] 7 150 ∧ ¬ Allows [.kind 1, .kind 7, .after 100, .before 200] 3 150 ∧
    SingleBounds [.kind 1, .kind 7, .after 100, .before 200] := by
  refine ⟨by decide +kernel, by simp [Allows], by simp [Allows], by decide⟩

/-! ## C56 -/

/-- **C56** (meaning): a delegation verifies for a delegatee exactly when its token is a valid signature of the delegator on the
NIP-26 text of delegatee and conditions. -/
theorem C56_verify_iff (C : Crypto) (d : Delegation) (pk : Bytes) (hp : pk.length = 32) :
    verify C d pk = .ok () ↔ d.conditions.length ≤ 4096 ∧ C.validPub d.delegator = true ∧
      C.verify d.delegator (C.sha256 (signedText pk d.conditions)) d.token = true := by
  unfold verify
  by_cases hc : d.conditions.length ≤ 4096
  · rw [digest_eq C hp hc, Res.bind_ok]
    cases C.validPub d.delegator <;> cases C.verify d.delegator (C.sha256 (signedText pk d.conditions)) d.token <;> simp [hc]
  · unfold digest
    rw [if_pos (by omega)]
    simp [hc]

/-- **C56** (completeness): created delegations verify, are the delegator's, carry the given conditions, and their parsed
conditions are those of the string. -/
theorem C56_created_verifies {C : Crypto} (hC : Nostr.Event.Props.CryptoOK C) (rand : Option Bytes) (sk pk cond : Bytes) (d : Delegation)
    (hp : pk.length = 32) (h : create C rand sk pk cond = .ok d) :
    verify C d pk = .ok () ∧ C.pubOf sk = some d.delegator ∧ d.conditions = cond ∧ parseConditions cond = some d.parsed := by
  unfold create at h
  obtain ⟨x, hx, h⟩ := Res.bind_eq_ok.1 h
  have hl : cond.length ≤ 4096 := by
    unfold digest at hx
    split at hx
    · cases hx
    · omega
  rw [digest_eq C hp hl] at hx
  simp only [Res.ok.injEq] at hx
  subst hx
  cases hpk : C.pubOf sk with
  | none => simp [hpk] at h
  | some p =>
    simp only [hpk] at h
    cases rand with
    | none => simp at h
    | some r =>
      simp only at h
      cases hs : C.sign sk (C.sha256 (signedText pk cond)) r with
      | none => simp [hs] at h
      | some s =>
        simp only [hs] at h
        cases hc : parseConditions cond with
        | none => simp [hc] at h
        | some c =>
          simp only [hc, Res.ok.injEq] at h
          subst h
          refine ⟨(C56_verify_iff C _ pk hp).2 ⟨hl, hC.pub _ _ hpk, hC.sig _ _ _ _ _ hpk hs⟩, rfl, rfl, rfl⟩

/-- **C56** (binding): a token of one delegator that verifies for two different pairs of delegatee and conditions is a hash
collision or a signature that is valid for two different digests. -/
theorem C56_binding (C : Crypto) (d d' : Delegation) (pk pk' : Bytes) (hp : pk.length = 32) (hp' : pk'.length = 32)
    (hd : d.delegator = d'.delegator) (ht : d.token = d'.token) (hne : (pk, d.conditions) ≠ (pk', d'.conditions))
    (h : verify C d pk = .ok ()) (h' : verify C d' pk' = .ok ()) :
    ∃ x y, x ≠ y ∧ (C.sha256 x = C.sha256 y ∨
      (C.verify d.delegator (C.sha256 x) d.token = true ∧ C.verify d.delegator (C.sha256 y) d.token = true ∧ C.sha256 x ≠ C.sha256 y)) := by
  obtain ⟨-, -, h1⟩ := (C56_verify_iff C d pk hp).1 h
  obtain ⟨-, -, h2⟩ := (C56_verify_iff C d' pk' hp').1 h'
  refine ⟨signedText pk d.conditions, signedText pk' d'.conditions, fun he => hne ?_, ?_⟩
  · obtain ⟨e1, e2⟩ := signedText_inj (by rw [hp, hp']) he
    rw [e1, e2]
  · by_cases he : C.sha256 (signedText pk d.conditions) = C.sha256 (signedText pk' d'.conditions)
    · exact .inl he
    · exact .inr ⟨h1, by rw [hd, ht]; exact h2, he⟩

/-- A tag that the reader takes for a delegation. -/
def IsDelegation (t : List Bytes) : Prop := ∃ a b c rest, t = c!"delegation" :: a :: b :: c :: rest

theorem getLoop_skip : ∀ (pre rest : List (List Bytes)), (∀ t ∈ pre, ¬ IsDelegation t) → getLoop (pre ++ rest) = getLoop rest := by
  intro pre rest
  induction pre with
  | nil => intro _; rfl
  | cons t pre ih =>
    intro h
    have ht := h t (by simp)
    have ih' := ih fun x hx => h x (by simp [hx])
    rw [List.cons_append]
    match t, ht with
    | [], _ => exact ih'
    | [_], _ => exact ih'
    | [_, _], _ => exact ih'
    | [_, _, _], _ => exact ih'
    | name :: a :: b :: c :: r, ht =>
      rw [getLoop, if_neg (fun hn => ht ⟨a, b, c, r, by rw [hn]⟩)]
      exact ih'

theorem validHex {s : Bytes} {n : Nat} : isValidHex s n = true ↔ s.length = n ∧ ∀ c ∈ s, Hex.Spec.IsHexDigit c := by
  unfold isValidHex
  rw [Bool.and_eq_true, beq_iff_eq, List.all_eq_true]
  constructor
  · rintro ⟨h1, h2⟩; exact ⟨h1, fun c hc => (Hex.isHex_iff c).2 (h2 c hc)⟩
  · rintro ⟨h1, h2⟩; exact ⟨h1, fun c hc => (Hex.isHex_iff c).1 (h2 c hc)⟩

theorem hexText_digits (bs : Bytes) : ∀ c ∈ Hex.Spec.hexText bs, Hex.Spec.IsHexDigit c := by
  have h : Hex.hexDecode (Hex.Spec.hexText bs) bs.length = some bs := by
    rw [← Hex.hexEncode_eq]
    exact (Hex.Props.C09_round_trip bs _ (Nat.le_refl _)).1
  have := (Hex.hexDecode_some_iff (Hex.Spec.hexText bs) bs.length).1 ⟨bs, h⟩
  exact this.2.2

/-- **C56** (in events): a delegation written into an event without one is read back unchanged. -/
theorem C56_event_roundtrip (cfg : Option Config.Config) (e e' : Event) (d : Delegation) (hk : d.delegator.length = 32)
    (ht : d.token.length = 64) (hl : d.conditions.length ≤ 4096) (hc : parseConditions d.conditions = some d.parsed)
    (hno : ∀ t ∈ e.tags, ¬ IsDelegation t) (h : addDelegation cfg e d = .ok e') : getDelegation e' = .ok d := by
  have he := Nip10.Props.addTag_ok h
  subst he
  unfold getDelegation
  simp only
  rw [getLoop_skip _ _ hno, getLoop, if_pos rfl]
  unfold readTag
  have h0 : d.conditions ≠ [] := by
    intro h0
    rw [h0] at hc
    simp [parseConditions] at hc
  have h1 : d.conditions.length ≠ 0 := fun h => h0 (List.length_eq_zero_iff.1 h)
  have hx : isValidHex (Hex.hexEncode d.delegator) 64 = true := by
    rw [Hex.hexEncode_eq]
    exact validHex.2 ⟨by rw [Hex.hexText_length, hk], hexText_digits _⟩
  have hy : isValidHex (Hex.hexEncode d.token) 128 = true := by
    rw [Hex.hexEncode_eq]
    exact validHex.2 ⟨by rw [Hex.hexText_length, ht], hexText_digits _⟩
  rw [if_neg (by omega), hx, hy, (Hex.Props.C09_round_trip _ 32 (by omega)).1, (Hex.Props.C09_round_trip _ 64 (by omega)).1, hc]
  rfl

/-- **C56** (events): a delegated event is accepted exactly when its first delegation tag holds the hex text of a delegator key
and of that delegator's valid signature on the NIP-26 text of the event's own key and the conditions in the tag, and the
conditions (of acceptable form) admit the event's kind and time. -/
theorem C56_event_iff (C : Crypto) (e : Event) (hp : e.pubkey.length = 32) :
    verifyDelegation C e = .ok () ↔ ∃ pre a cond b rest post pk tk c, e.tags = pre ++ (c!"delegation" :: a :: cond :: b :: rest) :: post ∧
      (∀ t ∈ pre, ¬ IsDelegation t) ∧ Hex.Spec.lowerHex a = Hex.Spec.hexText pk ∧ pk.length = 32 ∧
      Hex.Spec.lowerHex b = Hex.Spec.hexText tk ∧ tk.length = 64 ∧ cond.length ≤ 4096 ∧ parseConditions cond = some c ∧
      C.validPub pk = true ∧ C.verify pk (C.sha256 (signedText e.pubkey cond)) tk = true ∧
      check ⟨pk, cond, tk, c⟩ e.kind e.createdAt = .ok () := by
  constructor
  · intro h
    unfold verifyDelegation getDelegation at h
    obtain ⟨d, h1, h⟩ := Res.bind_eq_ok.1 h
    obtain ⟨_, h2, h3⟩ := Res.bind_eq_ok.1 h
    have find : ∀ ts, getLoop ts = .ok d → ∃ pre a cond b rest post, ts = pre ++ (c!"delegation" :: a :: cond :: b :: rest) :: post ∧
        (∀ t ∈ pre, ¬ IsDelegation t) ∧ readTag a cond b = .ok d := by
      intro ts
      induction ts with
      | nil => intro h; cases h
      | cons t ts ih =>
        intro h
        have short : ¬ IsDelegation t → getLoop ts = .ok d → ∃ pre a cond b rest post,
            t :: ts = pre ++ (c!"delegation" :: a :: cond :: b :: rest) :: post ∧ (∀ t ∈ pre, ¬ IsDelegation t) ∧ readTag a cond b = .ok d := by
          intro hn hg
          obtain ⟨pre, a, cond, b, rest, post, k1, k2, k3⟩ := ih hg
          refine ⟨t :: pre, a, cond, b, rest, post, by rw [k1]; rfl, ?_, k3⟩
          intro x hx
          rcases List.mem_cons.1 hx with rfl | hx
          · exact hn
          · exact k2 x hx
        match t, h with
        | [], h => exact short (by rintro ⟨_, _, _, _, h⟩; cases h) h
        | [_], h => exact short (by rintro ⟨_, _, _, _, h⟩; cases h) h
        | [_, _], h => exact short (by rintro ⟨_, _, _, _, h⟩; cases h) h
        | [_, _, _], h => exact short (by rintro ⟨_, _, _, _, h⟩; cases h) h
        | name :: a :: b :: c :: r, h =>
          rw [getLoop] at h
          split at h
          · rename_i hn
            subst hn
            exact ⟨[], a, b, c, r, ts, rfl, by simp, h⟩
          · rename_i hn
            exact short (by rintro ⟨_, _, _, _, h⟩; simp only [List.cons.injEq] at h; exact hn h.1) h
    obtain ⟨pre, a, cond, b, rest, post, k1, k2, k3⟩ := find _ h1
    unfold readTag at k3
    split at k3
    · cases k3
    rename_i hl
    split at k3
    · cases k3
    rename_i hv1
    split at k3
    · cases k3
    rename_i hv2
    have hv1' := validHex.1 (by simpa using hv1)
    have hv2' := validHex.1 (by simpa using hv2)
    cases hd1 : Hex.hexDecode a 32 with
    | none => simp [hd1] at k3
    | some pk =>
      cases hd2 : Hex.hexDecode b 64 with
      | none => simp [hd1, hd2] at k3
      | some tk =>
        cases hpc : parseConditions cond with
        | none => simp [hd1, hd2, hpc] at k3
        | some c =>
          simp only [hd1, hd2, hpc, Res.ok.injEq] at k3
          subst k3
          obtain ⟨v1, v2, v3⟩ := (C56_verify_iff C _ _ hp).1 h2
          have x1 := (Hex.Props.C09_decode_exact a pk 32).1 hd1
          have x2 := (Hex.Props.C09_decode_exact b tk 64).1 hd2
          have l1 := congrArg List.length x1.2
          have l2 := congrArg List.length x2.2
          simp only [Hex.lowerHex_length, Hex.hexText_length, hv1'.1] at l1
          simp only [Hex.lowerHex_length, Hex.hexText_length, hv2'.1] at l2
          exact ⟨pre, a, cond, b, rest, post, pk, tk, c, k1, k2, x1.2, by omega, x2.2, by omega, v1, hpc, v2, v3, h3⟩
  · rintro ⟨pre, a, cond, b, rest, post, pk, tk, c, h1, h2, h3, h4, h5, h6, h7, h8, h9, h10, h11⟩
    unfold verifyDelegation getDelegation
    rw [h1, getLoop_skip _ _ h2, getLoop, if_pos rfl]
    have l1 := congrArg List.length h3
    have l2 := congrArg List.length h5
    simp only [Hex.lowerHex_length, Hex.hexText_length] at l1 l2
    have d1 : Hex.hexDecode a 32 = some pk := (Hex.Props.C09_decode_exact a pk 32).2 ⟨by omega, h3⟩
    have d2 : Hex.hexDecode b 64 = some tk := (Hex.Props.C09_decode_exact b tk 64).2 ⟨by omega, h5⟩
    have v1 : isValidHex a 64 = true := validHex.2 ⟨by omega, ((Hex.hexDecode_some_iff a 32).1 ⟨pk, d1⟩).2.2⟩
    have v2 : isValidHex b 128 = true := validHex.2 ⟨by omega, ((Hex.hexDecode_some_iff b 64).1 ⟨tk, d2⟩).2.2⟩
    have h0 : cond.length ≠ 0 := by
      intro h0
      rw [List.length_eq_zero_iff.1 h0] at h8
      simp [parseConditions] at h8
    have hr : readTag a cond b = .ok ⟨pk, cond, tk, c⟩ := by
      unfold readTag
      rw [if_neg (by omega), v1, v2, d1, d2, h8]
      rfl
    rw [hr, Res.bind_ok, (C56_verify_iff C ⟨pk, cond, tk, c⟩ e.pubkey hp).2 ⟨h7, h9, h10⟩, Res.bind_ok, h11]

/-- A signed delegation for a note of time 1500, verified in the event. -/
example : ∃ d e, create toyCrypto (some []) (List.replicate 32 1) (List.replicate 32 2) (c!"kind=1&created_at>1000") = .ok d ∧
    addDelegation none { zero with pubkey := List.replicate 32 2, kind := 1, createdAt := 1500 } d = .ok e ∧
    verifyDelegation toyCrypto e = .ok () := by
  refine ⟨_, _, rfl, rfl, ?_⟩
  decide +kernel

end Nostr.Nip26.Props
