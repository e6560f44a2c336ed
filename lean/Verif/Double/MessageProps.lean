import Verif.Double.ConvertProps
import Verif.Relay.Props

/-!
# Properties C31, C90, C190 and C191: numbers of messages

Client and relay messages are read as documents, and the event or the filters in them are printed and read again.
-/

namespace Nostr.Double.Props
open Nostr Nostr.Json Nostr.Event Nostr.Event.Spec Nostr.Double Nostr.Double.Spec Nostr.Event.Props

theorem plainInt_small {t : Bytes} {i : Int} (h : plainInt t = some i) : i.natAbs < 10 ^ 15 := by
  unfold plainInt at h
  simp only [] at h
  have key : ∀ ds : Bytes, ds.length ≤ 15 → ds.all Num.isDigit = true → Num.natOf ds < 10 ^ 15 := fun ds h1 h2 =>
    Nat.lt_of_lt_of_le (natOf_lt _ (List.all_eq_true.1 h2)) (Nat.pow_le_pow_right (by decide) h1)
  generalize (if (t.head? == some 0x2d) = true then t.tail else t) = ds at h
  by_cases hd : ds ≠ [] ∧ ds.length ≤ 15 ∧ ds.all Num.isDigit = true
  · rw [if_pos hd, Option.some.injEq] at h
    have := key ds hd.2.1 hd.2.2
    subst h
    split <;> omega
  · rw [if_neg hd] at h
    simp at h

/-- Integers are printed as cJSON prints doubles. -/
def PrintsInts (r : Bytes → Json) : Prop :=
  ∀ neg ds, ds ≠ [] → (∀ c ∈ ds, Num.isDigit c = true) → Num.natOf ds < 2 ^ 63 - 512 →
    r (intText neg ds) = .num (numTok ofInt format (int64 read (intText neg ds)))

/-- A printer for the examples, which drops fractions. -/
def exRenum (t : Bytes) : Json :=
  if (int64 read t).natAbs ≤ 2 ^ 63 then .num (numTok ofInt format (int64 read t)) else .null

theorem ex_renum : Renum exRenum ∧ PrintsInts exRenum := by
  refine ⟨⟨fun t => ?_, fun t i h => ?_⟩, fun neg ds h1 h2 h3 => ?_⟩
  · unfold exRenum
    split
    · rename_i h; exact .inr ⟨_, rfl, tok_good h⟩
    · exact .inl rfl
  · have hi : i.natAbs < 10 ^ 15 := plainInt_small h
    have : int64 read t = i := by simp [int64, h]
    unfold exRenum
    rw [this, if_pos (by omega), numTok_small _ _ hi]
  · unfold exRenum
    rw [if_pos]
    have := (nearest_lt_iff (Num.natOf ds)).2 h3
    rw [int64_intText neg h1 h2]
    split <;> omega

theorem holds_int {r : Bytes → Json} (hp : PrintsInts r) {neg : Bool} {ds : Bytes} (hne : ds ≠ [])
    (hd : ∀ c ∈ ds, Num.isDigit c = true) (hs : Survives (Num.natOf ds)) : Msg.Spec.Holds read r (.num (intText neg ds)) := by
  have h1 : Num.natOf ds < 2 ^ 53 := hs.1
  refine ⟨_, hp neg ds hne hd (by omega), survives_back ?_⟩
  rw [int64_intText neg hne hd, nearest_exact h1]
  unfold Survives at hs ⊢
  cases neg
  · exact hs
  · simp only [if_true]
    omega

mutual
/-- Every number of the tree is a decimal integer that survives. -/
def Ints : Json → Prop
  | .num t => ∃ neg ds, t = intText neg ds ∧ ds ≠ [] ∧ (∀ c ∈ ds, Num.isDigit c = true) ∧ Survives (Num.natOf ds)
  | .arr l => IntsL l
  | .obj m => IntsM m
  | _ => True
/-- `Ints` for elements. -/
def IntsL : List Json → Prop
  | [] => True
  | j :: l => Ints j ∧ IntsL l
/-- `Ints` for members. -/
def IntsM : List (Bytes × Json) → Prop
  | [] => True
  | (_, j) :: m => Ints j ∧ IntsM m
end

mutual
theorem ints_hold {r : Bytes → Json} (hp : PrintsInts r) : ∀ j, Ints j → Msg.Spec.Holds read r j
  | .num _, ⟨_, _, h, h1, h2, h3⟩ => h ▸ holds_int hp h1 h2 h3
  | .arr l, h => ints_holdL hp l h
  | .obj m, h => ints_holdM hp m h
  | .str _, _ => trivial
  | .null, _ => trivial
  | .tru, _ => trivial
  | .fls, _ => trivial
theorem ints_holdL {r : Bytes → Json} (hp : PrintsInts r) : ∀ l, IntsL l → Msg.Spec.HoldsL read r l
  | [], _ => trivial
  | j :: l, h => ⟨ints_hold hp j h.1, ints_holdL hp l h.2⟩
theorem ints_holdM {r : Bytes → Json} (hp : PrintsInts r) : ∀ m, IntsM m → Msg.Spec.HoldsM read r m
  | [], _ => trivial
  | (_, j) :: m, h => ⟨ints_hold hp j h.1, ints_holdM hp m h.2⟩
end

/-- **C190**, client messages: a document whose numbers are integers that survive is accepted as the message it denotes, and a relay message
of that kind delivers the event it holds. Missing: other numbers, for which it fails. -/
theorem C190_messages_partial {r : Bytes → Json} (hr : Renum r) (hp : PrintsInts r) (lax : Bool) (cfg : Option Config.Config) :
    (∀ doc root m, parse doc = some root → Ints root →
      (Msg.clientParse (plat lax) Double.build r cfg doc 0 = .ok m ↔ Msg.Spec.Denotes (plat lax) cfg root m)) ∧
    ∀ ev, Ints ev → fromTree (plat lax) cfg (mapNum r ev) = fromTree (plat lax) cfg ev :=
  ⟨fun doc root m h1 h2 => (Msg.Props.C31_parse_partial (P := plat lax) hr ofInt format cfg doc).2 root h1 (ints_hold hp root h2) m,
    fun ev h => Relay.Props.C90_event_partial (P := plat lax) hr cfg (ints_hold hp ev h)⟩

/-- The hypotheses are met. -/
example : Renum exRenum ∧ PrintsInts exRenum ∧ Ints (.arr [.str (c!"EVENT"), .obj [(c!"created_at", .num (c!"1700000000123456"))]]) :=
  ⟨ex_renum.1, ex_renum.2, trivial, ⟨⟨false, c!"1700000000123456", rfl, by decide, by decide, by decide +kernel⟩, trivial⟩, trivial⟩

/-- An event of a time with 16 digits, as a document. -/
def lateDoc : Json := .obj [(c!"created_at", .num (c!"5000000000000001"))]

theorem late_printed {r : Bytes → Json} (hp : PrintsInts r) : mapNum r lateDoc = .obj [(c!"created_at", .num (c!"5e+15"))] := by
  have h := hp false (c!"5000000000000001") (by decide) (by decide) (by decide +kernel)
  have h2 : numTok ofInt format (int64 read (intText false (c!"5000000000000001"))) = c!"5e+15" := by decide +kernel
  rw [h2] at h
  have h3 : intText false (c!"5000000000000001") = c!"5000000000000001" := rfl
  rw [h3] at h
  simp only [lateDoc, mapNum, mapNumM, h]

/-- **C190 fails** for messages: a relay that reads a client's event of time 5000000000000001 gets one of time 5000000000000000, and so does
a client to whom a relay sends it. -/
theorem C190_messages_refuted {r : Bytes → Json} (hr : Renum r) (hp : PrintsInts r) (lax : Bool) (cfg : Option Config.Config) (hasCb : Bool) :
    Msg.clientParse (plat lax) Double.build r cfg (c!"[\"EVENT\",{\"created_at\":5000000000000001}]") 0 =
      .ok (.event { Event.zero with createdAt := 5000000000000000 }) ∧
    Relay.Call.event 7 { Event.zero with createdAt := 5000000000000000 } ∈
      (Relay.Props.step (plat lax) Double.build cfg r hasCb (Relay.Props.subsAfter (plat lax) Double.build cfg r hasCb [.subscribe (c!"a") (some 7)])
        (.text (c!"[\"EVENT\",\"a\",{\"created_at\":5000000000000001}]"))).2 := by
  have h5 : fromTree (plat lax) cfg (mapNum r lateDoc) = .ok { Event.zero with createdAt := 5000000000000000 } := by
    rw [late_printed hp]
    have : int64 read (c!"5e+15") = 5000000000000000 := by decide +kernel
    show (Res.ok { Event.zero with createdAt := int64 read (c!"5e+15") } : Res Event) = _
    rw [this]
  constructor
  · have hd : parse (c!"[\"EVENT\",{\"created_at\":5000000000000001}]") = some (.arr [.str (c!"EVENT"), lateDoc]) := by decide +kernel
    have hq : parse (reprint r lateDoc) = some (mapNum r lateDoc) :=
      parse_reprint hr (by simp [lateDoc, CStrs, CStrsM]; decide) (by decide)
    simp only [Msg.clientParse, Nat.lt_irrefl, gt_iff_lt, if_false, hd, Msg.ofRoot, asArr, asStr, if_true, Msg.eventArg, fromJson, Double.build, hq, h5]
    rfl
  · unfold Double.build
    rw [Relay.Props.C90_routing hr]
    exact ⟨c!"a", lateDoc, [], by decide +kernel, by decide, h5⟩

/-- The times of an element, if it has any, are 64-bit integers after printing. -/
def TimesFit (r : Bytes → Json) (j : Json) : Prop :=
  ∀ key ∈ [c!"created_at", c!"since", c!"until"], InRange (get (mapNum r j) key)

theorem fit_cstrs {l : List Json} {j : Json} (h : CStrs (.arr l) ∧ height (.arr l) ≤ nestingLimit) (hj : j ∈ l) :
    CStrs j ∧ height j ≤ nestingLimit := by
  obtain ⟨h1, h2⟩ := h
  simp only [CStrs, CStrsL_iff] at h1
  simp only [Json.height] at h2
  have := heightL_le hj
  exact ⟨h1 j hj, by omega⟩

theorem readArg_or {r : Bytes → Json} (hr : Renum r) (lax : Bool) (cfg : Option Config.Config) {js : List Json}
    (h : ∀ j ∈ js, CStrs j ∧ height j ≤ nestingLimit) :
    (readArg lax r cfg js = .ub ∧ ∃ j ∈ js, ¬ TimesFit r j) ∨ readArg lax r cfg js = Msg.eventArg (plat lax) Double.build r cfg js := by
  cases js with
  | nil => exact .inr rfl
  | cons j js =>
    unfold readArg Msg.eventArg
    rcases C191_event lax cfg (reprint r j) with ⟨h1, root, _, _, h2, -, -, h3⟩ | h1
    · left
      rw [parse_reprint hr (h j (by simp)).1 (h j (by simp)).2, Option.some.injEq] at h2
      subst h2
      simp only [h1]
      exact ⟨trivial, j, by simp, fun hc => h3 (hc _ (by simp))⟩
    · right
      simp only [h1]
      cases fromJson (plat lax) Double.build cfg (reprint r j) <;> rfl

theorem readFilters_or {r : Bytes → Json} (hr : Renum r) (lax : Bool) : ∀ js : List Json, (∀ j ∈ js, CStrs j ∧ height j ≤ nestingLimit) →
    (readFilters r js = .ub ∧ ∃ j ∈ js, ¬ TimesFit r j) ∨ readFilters r js = Msg.filterLoop (plat lax) r js
  | [], _ => .inr rfl
  | j :: js, h => by
    have hp : Filter.parseFilter (plat lax).real (reprint r j) (reprint r j).length = Filter.parseFilter read (reprint r j) 0 := by
      unfold Filter.parseFilter
      simp [plat]
    unfold readFilters Msg.filterLoop
    rw [hp]
    rcases C191_filter (reprint r j) with ⟨h1, root, h2, h3⟩ | h1
    · left
      rw [parse_reprint hr (h j (by simp)).1 (h j (by simp)).2, Option.some.injEq] at h2
      subst h2
      rw [h1]
      exact ⟨rfl, j, by simp, fun hc => h3 ⟨hc _ (by simp), hc _ (by simp)⟩⟩
    · rw [h1]
      cases Filter.parseFilter read (reprint r j) 0 with
      | err _ => exact .inr rfl
      | ub => exact .inr rfl
      | ok f =>
        simp only [Res.bind_ok]
        cases (Filter.validate f).1 with
        | err _ => exact .inr rfl
        | ub => exact .inr rfl
        | ok _ =>
          simp only [Res.bind_ok]
          rcases readFilters_or hr lax js (fun x hx => h x (by simp [hx])) with ⟨h4, x, hx, h5⟩ | h4
          · exact .inl ⟨by rw [h4]; rfl, x, by simp [hx], h5⟩
          · exact .inr (by rw [h4])

theorem readList_or {r : Bytes → Json} (hr : Renum r) (lax : Bool) {js : List Json} (h : ∀ j ∈ js, CStrs j ∧ height j ≤ nestingLimit) :
    (readList r js = .ub ∧ ∃ j ∈ js, ¬ TimesFit r j) ∨ readList r js = Msg.parseFilters (plat lax) r js := by
  unfold readList Msg.parseFilters
  split
  · exact .inr rfl
  · split
    · exact .inr rfl
    · exact readFilters_or hr lax js h

theorem bind_or {α β : Type} {x y : Res α} {f : α → Res β} {Q : Prop} (h : (x = .ub ∧ Q) ∨ x = y) :
    (x >>= f = .ub ∧ Q) ∨ x >>= f = y >>= f := by
  rcases h with ⟨h1, h2⟩ | h
  · exact .inl ⟨by rw [h1]; rfl, h2⟩
  · exact .inr (by rw [h])

theorem bind_or' {α β : Type} {x : Res α} {f g : α → Res β} {Q : Prop} (h : ∀ a, (f a = .ub ∧ Q) ∨ f a = g a) :
    (x >>= f = .ub ∧ Q) ∨ x >>= f = x >>= g := by
  cases x with
  | ok a => exact h a
  | err _ => exact .inr rfl
  | ub => exact .inr rfl

/-- **C191**, client messages, for every text: reading one is undefined only if it is an array that begins with a string and has an element
with a `created_at`, `since` or `until` that no signed 64-bit integer is; in every other case it does what is stated of it elsewhere. -/
theorem C191_client {r : Bytes → Json} (hr : Renum r) (lax : Bool) (cfg : Option Config.Config) (s : Bytes) :
    (readClient lax r cfg s = .ub ∧ ∃ t args, parse s = some (.arr (.str t :: args)) ∧ ∃ j ∈ args, ¬ TimesFit r j) ∨
    readClient lax r cfg s = Msg.clientParse (plat lax) Double.build r cfg s 0 := by
  unfold readClient Msg.clientParse
  simp only [Nat.lt_irrefl, gt_iff_lt, if_false]
  cases hp : parse s with
  | none => exact .inr rfl
  | some root =>
    have hc := parse_cstrs hp
    simp only []
    unfold Msg.ofRoot
    match root, hp, hc with
    | .null, _, _ | .tru, _, _ | .fls, _, _ | .num _, _, _ | .str _, _, _ | .obj _, _, _ => exact .inr rfl
    | .arr [], _, _ => exact .inr rfl
    | .arr (.null :: _), _, _ | .arr (.tru :: _), _, _ | .arr (.fls :: _), _, _ | .arr (.num _ :: _), _, _ | .arr (.arr _ :: _), _, _
    | .arr (.obj _ :: _), _, _ => exact .inr rfl
    | .arr (.str t :: args), hp, hc =>
      have ha : ∀ j ∈ args, CStrs j ∧ height j ≤ nestingLimit := fun j hj => fit_cstrs hc (by simp [hj])
      have ht : ∀ j ∈ args.tail, CStrs j ∧ height j ≤ nestingLimit := fun j hj => ha j (List.mem_of_mem_tail hj)
      have q1 : (∃ j ∈ args, ¬ TimesFit r j) → ∃ t' args', some (Json.arr (.str t :: args)) = some (.arr (.str t' :: args')) ∧
          ∃ j ∈ args', ¬ TimesFit r j := fun h => ⟨t, args, rfl, h⟩
      have q2 : (∃ j ∈ args.tail, ¬ TimesFit r j) → ∃ j ∈ args, ¬ TimesFit r j :=
        fun ⟨j, hj, h⟩ => ⟨j, List.mem_of_mem_tail hj, h⟩
      have k1 := (readArg_or hr lax cfg ha).imp_left fun h => And.intro h.1 (q1 h.2)
      have k2 := (readList_or hr lax ht).imp_left fun h => And.intro h.1 (q1 (q2 h.2))
      simp only [asArr, asStr]
      split
      · exact bind_or k1
      · split
        · exact bind_or' fun id => bind_or k2
        · split
          · exact .inr rfl
          · split
            · exact bind_or k1
            · split
              · exact bind_or' fun id => bind_or k2
              · exact .inr rfl

/-- **C191 fails** for client messages: an event, or the second of two filters, with a time that is too large. The number is printed as 1e+30. -/
theorem C191_client_refuted {r : Bytes → Json} (hr : Renum r) (lax : Bool) (cfg : Option Config.Config)
    (h : r (c!"1e30") = .num (c!"1e+30")) : readClient lax r cfg (c!"[\"EVENT\",{\"created_at\":1e30}]") = .ub ∧
      readClient lax r cfg (c!"[\"REQ\",\"a\",{},{\"until\":1e30}]") = .ub := by
  have e1 : readEvent lax cfg (c!"{\"created_at\":1e+30}") = .ub := by
    have hp : parse (c!"{\"created_at\":1e+30}") = some (.obj [(c!"created_at", .num (c!"1e+30"))]) := by decide +kernel
    unfold readEvent
    rw [hp]
    have h1 : convert64 (get (.obj [(c!"created_at", .num (c!"1e+30"))]) (c!"created_at")) = .ub := by decide +kernel
    simp only [h1]
    rfl
  have e2 : readFilter (c!"{\"until\":1e+30}") = .ub := by decide +kernel
  have e3 : ∀ k : Bytes, reprint r (.obj [(k, .num (c!"1e30"))]) = print false 0 (.obj [(k, .num (c!"1e+30"))]) := by
    intro k; simp only [reprint, mapNum, mapNumM, h]
  constructor
  · have hp : parse (c!"[\"EVENT\",{\"created_at\":1e30}]") =
        some (.arr [.str (c!"EVENT"), .obj [(c!"created_at", .num (c!"1e30"))]]) := by decide +kernel
    unfold readClient
    rw [hp]
    simp only [if_true, readArg, e3]
    rw [show print false 0 (.obj [(c!"created_at", .num (c!"1e+30"))]) = c!"{\"created_at\":1e+30}" by decide +kernel, e1]
    rfl
  · have hp : parse (c!"[\"REQ\",\"a\",{},{\"until\":1e30}]") =
        some (.arr [.str (c!"REQ"), .str (c!"a"), .obj [], .obj [(c!"until", .num (c!"1e30"))]]) := by decide +kernel
    unfold readClient
    rw [hp]
    have e4 : readFilter (reprint r (.obj [])) = .ok Filter.empty := by
      show readFilter (print false 0 (.obj [])) = _
      decide +kernel
    simp only [List.tail_cons, readList, readFilters, e3, e4]
    rw [show print false 0 (.obj [(c!"until", .num (c!"1e+30"))]) = c!"{\"until\":1e+30}" by decide +kernel, e2]
    rfl

/-- The hypotheses are met. -/
example : Renum fun t => if t = c!"1e30" then .num (c!"1e+30") else exRenum t := by
  refine ⟨fun t => ?_, fun t i h => ?_⟩
  · split
    · exact .inr ⟨_, rfl, sci_good (g := []) (Or.inl rfl) (d := 0x31) (fs := []) (x := 30) (by decide) (by decide) (by decide) (by decide)⟩
    · exact ex_renum.1.shape t
  · split
    · rename_i ht
      subst ht
      rw [show plainInt (c!"1e30") = none by decide] at h
      simp at h
    · exact ex_renum.1.plain t i h

end Nostr.Double.Props
