import Verif.Json.Lemmas

/-!
# Printing a parsed tree and parsing it again

Several functions of the library print a subtree and hand the text to a second parser. cJSON stores a number as a
`double` and prints it anew; `r` is that round trip on number texts (`"1.0"` becomes `"1"`, a value beyond the
range of `double` becomes `null`).
-/

namespace Nostr.Json
open Nostr

mutual
/-- The tree after its numbers went through the `double` they are stored in. -/
def mapNum (r : Bytes → Json) : Json → Json
  | .num t => r t
  | .arr l => .arr (mapNumL r l)
  | .obj m => .obj (mapNumM r m)
  | j => j
/-- `mapNum` on elements. -/
def mapNumL (r : Bytes → Json) : List Json → List Json
  | [] => []
  | j :: l => mapNum r j :: mapNumL r l
/-- `mapNum` on members. -/
def mapNumM (r : Bytes → Json) : List (Bytes × Json) → List (Bytes × Json)
  | [] => []
  | (k, j) :: m => (k, mapNum r j) :: mapNumM r m
end

/-- `cJSON_PrintUnformatted` of a parsed tree. -/
def reprint (r : Bytes → Json) (j : Json) : Bytes := print false 0 (mapNum r j)

/-- What is assumed of cJSON's number printing: it yields well-formed number texts (or `null` for values a
`double` cannot hold), and integers of at most 15 digits are printed in decimal notation. -/
structure Renum (r : Bytes → Json) : Prop where
  shape : ∀ t, r t = .null ∨ ∃ t', r t = .num t' ∧ GoodNum t'
  plain : ∀ t i, plainInt t = some i → r t = .num (Num.decInt i)

theorem mapNumL_map (r) (l : List Json) : mapNumL r l = l.map (mapNum r) := by
  induction l with
  | nil => rfl
  | cons j l ih => simp [mapNumL, ih]

theorem mapNumM_map (r) (m : List (Bytes × Json)) : mapNumM r m = m.map fun p => (p.1, mapNum r p.2) := by
  induction m with
  | nil => rfl
  | cons p m ih => obtain ⟨k, j⟩ := p; simp [mapNumM, ih]

mutual
/-- All strings are C strings. -/
def CStrs : Json → Prop
  | .str s => CStr s
  | .arr l => CStrsL l
  | .obj m => CStrsM m
  | _ => True
/-- `CStrs` for elements. -/
def CStrsL : List Json → Prop
  | [] => True
  | j :: l => CStrs j ∧ CStrsL l
/-- `CStrs` for members. -/
def CStrsM : List (Bytes × Json) → Prop
  | [] => True
  | (k, j) :: m => CStr k ∧ CStrs j ∧ CStrsM m
end

theorem cstr_cstr (s : Bytes) : CStr (cstr s) := by
  unfold CStr cstr
  induction s with
  | nil => simp
  | cons c s ih =>
    rw [List.takeWhile_cons]
    split
    · rename_i h
      simp only [bne_iff_ne, ne_eq] at h
      simp only [List.mem_cons, not_or]
      exact ⟨Ne.symm h, ih⟩
    · simp

theorem parseStr_cstr {s k rest} (h : parseStr s = some (k, rest)) : CStr k := by
  unfold parseStr at h
  split at h
  · simp at h
  · rename_i raw r _
    cases hu : unescape raw.length raw with
    | none => rw [hu] at h; simp at h
    | some d =>
      rw [hu] at h
      simp only [Option.map_some, Option.some.injEq, Prod.mk.injEq] at h
      rw [← h.1]; exact cstr_cstr d

theorem parse_shape : ∀ f : Nat,
    (∀ d s j rest, d ≤ nestingLimit → parseValue f d s = some (j, rest) →
      CStrs j ∧ d + height j ≤ nestingLimit) ∧
    (∀ d s l rest, d ≤ nestingLimit → parseElems f d s = some (l, rest) →
      CStrsL l ∧ d + heightL l ≤ nestingLimit) ∧
    (∀ d s m rest, d ≤ nestingLimit → parseMembers f d s = some (m, rest) →
      CStrsM m ∧ d + heightM m ≤ nestingLimit) := by
  intro f
  induction f with
  | zero =>
    refine ⟨?_, ?_, ?_⟩
    · intro d s j rest _ h; rw [parseValue.eq_def] at h; simp at h
    · intro d s j rest _ h; rw [parseElems.eq_def] at h; simp at h
    · intro d s j rest _ h; rw [parseMembers.eq_def] at h; simp at h
  | succ f ih =>
    obtain ⟨ih1, ih2, ih3⟩ := ih
    refine ⟨?_, ?_, ?_⟩
    · intro d s j rest hd h
      rw [parseValue.eq_def] at h
      simp only at h
      split at h
      · simp only [Option.some.injEq, Prod.mk.injEq] at h; rw [← h.1]; simp [CStrs, height, hd]
      split at h
      · simp only [Option.some.injEq, Prod.mk.injEq] at h; rw [← h.1]; simp [CStrs, height, hd]
      split at h
      · simp only [Option.some.injEq, Prod.mk.injEq] at h; rw [← h.1]; simp [CStrs, height, hd]
      split at h
      · simp at h
      split at h
      · obtain ⟨⟨k, r'⟩, hp, h⟩ := Option.map_eq_some_iff.1 h
        simp only [Prod.mk.injEq] at h
        rw [← h.1]
        exact ⟨by simpa only [CStrs] using parseStr_cstr hp, by simpa [height] using hd⟩
      split at h
      · split at h
        · simp at h
        · simp only [Option.some.injEq, Prod.mk.injEq] at h; rw [← h.1]; simp [CStrs, height, hd]
      split at h
      · split at h
        · simp at h
        split at h
        · simp at h
        split at h
        · simp only [Option.some.injEq, Prod.mk.injEq] at h; rw [← h.1]; simp [CStrs, CStrsL, height, heightL]; omega
        · obtain ⟨q, hp, h⟩ := Option.map_eq_some_iff.1 h
          simp only [Prod.mk.injEq] at h
          obtain ⟨h1, h2⟩ := ih2 (d + 1) _ q.1 q.2 (by omega) hp
          rw [← h.1]
          simp only [CStrs, height]
          exact ⟨h1, by omega⟩
      split at h
      · split at h
        · simp at h
        split at h
        · simp at h
        split at h
        · simp only [Option.some.injEq, Prod.mk.injEq] at h; rw [← h.1]; simp [CStrs, CStrsM, height, heightM]; omega
        · obtain ⟨q, hp, h⟩ := Option.map_eq_some_iff.1 h
          simp only [Prod.mk.injEq] at h
          obtain ⟨h1, h2⟩ := ih3 (d + 1) _ q.1 q.2 (by omega) hp
          rw [← h.1]
          simp only [CStrs, height]
          exact ⟨h1, by omega⟩
      · simp at h
    · intro d s l rest hd h
      rw [parseElems.eq_def] at h
      simp only at h
      split at h
      · simp at h
      rename_i j s1 hp
      obtain ⟨h1, h2⟩ := ih1 d s j s1 hd hp
      split at h
      · simp at h
      rename_i c r _
      split at h
      · cases hq : parseElems f d (skipWs r) with
        | none => rw [hq] at h; simp at h
        | some q =>
          rw [hq] at h
          simp only [Option.map_some, Option.some.injEq, Prod.mk.injEq] at h
          obtain ⟨h3, h4⟩ := ih2 d _ q.1 q.2 hd hq
          rw [← h.1]
          simp only [CStrsL, heightL]
          exact ⟨⟨h1, h3⟩, by omega⟩
      split at h
      · simp only [Option.some.injEq, Prod.mk.injEq] at h
        rw [← h.1]
        simp only [CStrsL, heightL]
        exact ⟨⟨h1, trivial⟩, by omega⟩
      · simp at h
    · intro d s m rest hd h
      rw [parseMembers.eq_def] at h
      simp only at h
      split at h
      · simp at h
      split at h
      · simp at h
      split at h
      · simp at h
      rename_i k s1 hk
      split at h
      · simp at h
      split at h
      · simp at h
      split at h
      · simp at h
      rename_i j s3 hp
      obtain ⟨h1, h2⟩ := ih1 d _ j s3 hd hp
      split at h
      · simp at h
      rename_i c r _
      split at h
      · cases hq : parseMembers f d (skipWs r) with
        | none => rw [hq] at h; simp at h
        | some q =>
          rw [hq] at h
          simp only [Option.map_some, Option.some.injEq, Prod.mk.injEq] at h
          obtain ⟨h3, h4⟩ := ih3 d _ q.1 q.2 hd hq
          rw [← h.1]
          simp only [CStrsM, heightM]
          exact ⟨⟨parseStr_cstr hk, h1, h3⟩, by omega⟩
      split at h
      · simp only [Option.some.injEq, Prod.mk.injEq] at h
        rw [← h.1]
        simp only [CStrsM, heightM]
        exact ⟨⟨parseStr_cstr hk, h1, trivial⟩, by omega⟩
      · simp at h

/-- A parsed tree has C strings only and bounded nesting. -/
theorem parse_cstrs {s : Bytes} {j : Json} (h : parse s = some j) : CStrs j ∧ height j ≤ nestingLimit := by
  unfold parse at h
  cases hp : parseValue (2 * s.length + 2) 0 (skipWs s) with
  | none => rw [hp] at h; simp at h
  | some q =>
    obtain ⟨j', rest⟩ := q
    rw [hp] at h
    simp only [Option.map_some, Option.some.injEq] at h
    subst h
    have := (parse_shape _).1 0 _ _ _ (by decide) hp
    exact ⟨this.1, by omega⟩

theorem CStrsL_iff (l : List Json) : CStrsL l ↔ ∀ j ∈ l, CStrs j := by
  induction l with
  | nil => simp [CStrsL]
  | cons j l ih => simp [CStrsL, ih]

theorem heightL_le {l : List Json} {j : Json} (h : j ∈ l) : height j ≤ heightL l := by
  induction l with
  | nil => simp at h
  | cons k l ih =>
    simp only [heightL]
    rcases List.mem_cons.1 h with rfl | h
    · omega
    · have := ih h; omega

theorem good_mapNum {r} (hr : Renum r) (j : Json) : CStrs j → Good (mapNum r j) := by
  refine Json.rec (motive_1 := fun j => CStrs j → Good (mapNum r j))
    (motive_2 := fun l => CStrsL l → GoodL (mapNumL r l))
    (motive_3 := fun m => CStrsM m → GoodM (mapNumM r m))
    (motive_4 := fun p => CStrs p.2 → Good (mapNum r p.2)) ?_ ?_ ?_ ?_ ?_ ?_ ?_ ?_ ?_ ?_ ?_ ?_ j
  · intro _; simp [mapNum, Good]
  · intro _; simp [mapNum, Good]
  · intro _; simp [mapNum, Good]
  · intro t _
    simp only [mapNum]
    rcases hr.shape t with h | ⟨t', h, hg⟩
    · rw [h]; simp [Good]
    · rw [h]; simpa only [Good] using hg
  · intro s h; simpa only [mapNum, Good, CStrs] using h
  · intro l ih h; simpa only [mapNum, Good] using ih (by simpa only [CStrs] using h)
  · intro l ih h; simpa only [mapNum, Good] using ih (by simpa only [CStrs] using h)
  · intro _; simp [mapNumL, GoodL]
  · intro j l hj hl h; simp only [CStrsL] at h; simp only [mapNumL, GoodL]; exact ⟨hj h.1, hl h.2⟩
  · intro _; simp [mapNumM, GoodM]
  · intro p l hp hl h
    obtain ⟨k, j⟩ := p
    simp only [CStrsM] at h; simp only [mapNumM, GoodM]; exact ⟨h.1, hp h.2.1, hl h.2.2⟩
  · intro k j hj h; exact hj h

theorem height_mapNum {r} (hr : Renum r) (j : Json) : height (mapNum r j) = height j := by
  refine Json.rec (motive_1 := fun j => height (mapNum r j) = height j)
    (motive_2 := fun l => heightL (mapNumL r l) = heightL l)
    (motive_3 := fun m => heightM (mapNumM r m) = heightM m)
    (motive_4 := fun p => height (mapNum r p.2) = height p.2) ?_ ?_ ?_ ?_ ?_ ?_ ?_ ?_ ?_ ?_ ?_ ?_ j
  · simp [mapNum]
  · simp [mapNum]
  · simp [mapNum]
  · intro t
    simp only [mapNum]
    rcases hr.shape t with h | ⟨t', h, hg⟩ <;> rw [h] <;> simp [height]
  · intro s; simp [mapNum]
  · intro l ih; simp [mapNum, height, ih]
  · intro l ih; simp [mapNum, height, ih]
  · simp [mapNumL]
  · intro j l hj hl; simp [mapNumL, heightL, hj, hl]
  · simp [mapNumM]
  · intro p l hp hl
    obtain ⟨k, j⟩ := p
    simp only at hp
    simp [mapNumM, heightM, hp, hl]
  · intro k j hj; exact hj

/-- Printing a subtree of a parsed document and parsing it again changes nothing but the texts of numbers. -/
theorem parse_reprint {r} (hr : Renum r) {j : Json} (hc : CStrs j) (hh : height j ≤ nestingLimit) :
    parse (reprint r j) = some (mapNum r j) := by
  have := parse_print false 0 (mapNum r j) (good_mapNum hr j hc) (by rw [height_mapNum hr]; exact hh) [] (by simp [Stop])
  rwa [List.append_nil] at this

/-! ## Reading the tree after the round trip -/

theorem get_mapNum (r) (j : Json) (k : Bytes) (hr : ∀ t, ∀ m, r t ≠ .obj m) :
    Json.get (mapNum r j) k = (Json.get j k).map (mapNum r) := by
  cases j with
  | obj m =>
    simp only [mapNum, Json.get, mapNumM_map]
    induction m with
    | nil => rfl
    | cons p m ih =>
      simp only [List.map_cons, List.find?_cons]
      split
      · simp
      · exact ih
  | num t =>
    simp only [mapNum, Json.get, Option.map_none]
    cases hrt : r t with
    | obj m => exact absurd hrt (hr t m)
    | _ => rfl
  | _ => rfl

theorem asStr_mapNum {r} (hr : Renum r) (j : Json) : asStr (mapNum r j) = asStr j := by
  cases j with
  | num t =>
    simp only [mapNum]
    rcases hr.shape t with h | ⟨t', h, hg⟩ <;> rw [h] <;> rfl
  | _ => rfl

theorem asArr_mapNum {r} (hr : Renum r) (j : Json) :
    asArr (mapNum r j) = (asArr j).map (mapNumL r) := by
  cases j with
  | num t =>
    simp only [mapNum]
    rcases hr.shape t with h | ⟨t', h, hg⟩ <;> rw [h] <;> rfl
  | _ => rfl

theorem Renum.noobj {r} (hr : Renum r) : ∀ t m, r t ≠ .obj m := by
  intro t m h
  rcases hr.shape t with h' | ⟨t', h', _⟩ <;> rw [h] at h' <;> simp at h'

end Nostr.Json
