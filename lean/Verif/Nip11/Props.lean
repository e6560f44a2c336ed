import Verif.Nip11.Spec
import Verif.Event.JsonLemmas

/-! # Property theorems: C72, C115 -/

namespace Nostr.Nip11.Props
open Nostr Nostr.Json Nostr.Nip11 Nostr.Nip11.Spec

/-! ## Objects with optional members -/

/-- Members that are present. -/
def render (l : List (Bytes × Option Json)) : List (Bytes × Json) := l.filterMap fun p => p.2.map fun j => (p.1, j)

theorem render_append (a b : List (Bytes × Option Json)) : render (a ++ b) = render a ++ render b := by
  simp [render]

theorem get_render {l : List (Bytes × Option Json)} (hd : (l.map fun p => p.1.map lowerC).Nodup) {k : Bytes} {o : Option Json}
    (h : (k, o) ∈ l) : Json.get (.obj (render l)) k = o := by
  simp only [Json.get]
  have key : ∀ l : List (Bytes × Option Json), k.map lowerC ∉ (l.map fun p => p.1.map lowerC) →
      (render l).find? (fun p => p.1.map lowerC == k.map lowerC) = none := by
    intro l hl
    rw [List.find?_eq_none]
    intro q hq he
    simp only [beq_iff_eq] at he
    apply hl
    unfold render at hq
    rw [List.mem_filterMap] at hq
    obtain ⟨p, hp, hq⟩ := hq
    cases hj : p.2 with
    | none => rw [hj] at hq; simp at hq
    | some j =>
      rw [hj] at hq
      simp only [Option.map_some, Option.some.injEq] at hq
      rw [List.mem_map]
      refine ⟨p, hp, ?_⟩
      rw [← he, ← hq]
  induction l with
  | nil => simp at h
  | cons a l ih =>
    rw [List.map_cons, List.nodup_cons] at hd
    rw [List.mem_cons] at h
    have hr : render (a :: l) = render [a] ++ render l := render_append [a] l
    rw [hr, List.find?_append]
    rcases h with rfl | h
    · cases o with
      | none =>
        have : render [(k, (none : Option Json))] = [] := rfl
        rw [this, key l hd.1]
        rfl
      | some j =>
        have : render [(k, some j)] = [(k, j)] := rfl
        rw [this]
        simp
    · have hne : ¬ a.1.map lowerC = k.map lowerC := by
        intro he
        apply hd.1
        rw [List.mem_map]
        exact ⟨(k, o), h, he.symm⟩
      have : (render [a]).find? (fun p => p.1.map lowerC == k.map lowerC) = none := by
        apply key
        simp only [List.map_cons, List.map_nil, List.mem_singleton]
        exact fun h => hne h.symm
      rw [this, Option.none_or]
      exact ih hd.2 h

theorem strM_render (k : Bytes) (o : Option Bytes) : strM k o = render [(k, o.map .str)] := by cases o <;> rfl

theorem posM_render (td fr) (k : Bytes) (n : Int) : posM td fr k n = render [(k, if 0 < n then some (numJ td fr n) else none)] := by
  unfold posM
  by_cases h : 0 < n
  · rw [if_pos h, if_pos h]; rfl
  · rw [if_neg h, if_neg h]; rfl

theorem boolM_render (k : Bytes) (b : Bool) : boolM k b = render [(k, some (if b then .tru else .fls))] := rfl

theorem one_render (k : Bytes) (j : Json) : [(k, j)] = render [(k, some j)] := rfl

theorem if_render {c : Prop} [Decidable c] (k : Bytes) (j : Json) :
    (if c then [] else [(k, j)]) = render [(k, if c then none else some j)] := by
  by_cases h : c
  · rw [if_pos h, if_pos h]; rfl
  · rw [if_neg h, if_neg h]; rfl

theorem if_render' {c : Prop} [Decidable c] (k : Bytes) (j : Json) :
    (if c then [(k, j)] else []) = render [(k, if c then some j else none)] := by
  by_cases h : c
  · rw [if_pos h, if_pos h]; rfl
  · rw [if_neg h, if_neg h]; rfl

/-! ## Numbers -/

variable {td : Int → Int} {fr : Int → Bytes} {real : Bytes → Int}

theorem isNum {n : Int} (h : n.natAbs < 10 ^ 15) : IsNum real n (numJ td fr n) :=
  ⟨_, rfl, by rw [Event.numTok_small td fr h]; exact Event.int64_decInt real h⟩

theorem good_num {n : Int} (h : n.natAbs < 10 ^ 15) : Good (numJ td fr n) := by
  simp only [numJ, Good]
  rw [Event.numTok_small td fr h]
  exact Event.goodNum_decInt (by omega)

theorem isNums {l : List Int} (h : ∀ n ∈ l, n.natAbs < 10 ^ 15) : IsNums real l (.arr (l.map (numJ td fr))) :=
  ⟨_, rfl, by simp, fun i hi hi' => by rw [List.getElem_map]; exact isNum (h _ (List.getElem_mem hi))⟩

theorem limit_of {l : List (Bytes × Option Json)} (hd : (l.map fun p => p.1.map lowerC).Nodup) {k : Bytes} {n : Int}
    (hn : n.natAbs < 10 ^ 15) (h : (k, if 0 < n then some (numJ td fr n) else none) ∈ l) :
    Limit real (.obj (render l)) k n := by
  have := get_render hd h
  unfold Limit
  split
  · rename_i hp
    rw [if_pos hp] at this
    exact ⟨_, this, isNum hn⟩
  · rename_i hp
    rwa [if_neg hp] at this

theorem nums_of {l : List (Bytes × Option Json)} (hd : (l.map fun p => p.1.map lowerC).Nodup) {k : Bytes} {ns : List Int}
    (hn : ∀ n ∈ ns, n.natAbs < 10 ^ 15) (h : (k, if ns = [] then none else some (.arr (ns.map (numJ td fr)))) ∈ l) :
    Nums real (.obj (render l)) k ns := by
  have := get_render hd h
  unfold Nums
  split
  · rename_i hp
    rwa [if_pos hp] at this
  · rename_i hp
    rw [if_neg hp] at this
    exact ⟨_, this, isNums hn⟩

theorem each_of {α : Type} {p : α → Json → Prop} {l : List (Bytes × Option Json)} (hd : (l.map fun p => p.1.map lowerC).Nodup)
    {k : Bytes} {xs : List α} {g : α → Json} (hp : ∀ x ∈ xs, p x (g x))
    (h : (k, if xs = [] then none else some (.arr (xs.map g))) ∈ l) : Each p (.obj (render l)) k xs := by
  have := get_render hd h
  unfold Each
  split
  · rename_i hx
    rwa [if_pos hx] at this
  · rename_i hx
    rw [if_neg hx] at this
    exact ⟨_, this, by simp, fun i hi hi' => by rw [List.getElem_map]; exact hp _ (List.getElem_mem hi)⟩

theorem good_render {l : List (Bytes × Option Json)} (hk : ∀ p ∈ l, CStr p.1) (hg : ∀ p ∈ l, ∀ j ∈ p.2, Good j) :
    Good (.obj (render l)) := by
  simp only [Good]
  induction l with
  | nil => simp [render, GoodM]
  | cons a l ih =>
    have hr : render (a :: l) = render [a] ++ render l := render_append [a] l
    rw [hr]
    have h1 := ih (fun p hp => hk p (by simp [hp])) (fun p hp => hg p (by simp [hp]))
    obtain ⟨k, o⟩ := a
    cases o with
    | none => exact h1
    | some j => exact ⟨hk (k, some j) (by simp), hg (k, some j) (by simp) j rfl, h1⟩

theorem goodL_map {α : Type} {g : α → Json} {l : List α} (h : ∀ x ∈ l, Good (g x)) : GoodL (l.map g) := by
  induction l with
  | nil => simp [GoodL]
  | cons a l ih => exact ⟨h a (by simp), ih fun x hx => h x (by simp [hx])⟩

theorem heightL_map {α : Type} {g : α → Json} {l : List α} {n : Nat} (h : ∀ x ∈ l, height (g x) ≤ n) : heightL (l.map g) ≤ n := by
  induction l with
  | nil => simp [heightL]
  | cons a l ih =>
    simp only [List.map_cons, heightL]
    have := h a (by simp)
    have := ih fun x hx => h x (by simp [hx])
    omega

theorem height_render {l : List (Bytes × Option Json)} {n : Nat} (h : ∀ p ∈ l, ∀ j ∈ p.2, height j ≤ n) :
    height (.obj (render l)) ≤ 1 + n := by
  simp only [height]
  have : heightM (render l) ≤ n := by
    induction l with
    | nil => simp [render, heightM]
    | cons a l ih =>
      have hr : render (a :: l) = render [a] ++ render l := render_append [a] l
      rw [hr]
      have h1 := ih (fun p hp => h p (by simp [hp]))
      obtain ⟨k, o⟩ := a
      cases o with
      | none => exact h1
      | some j =>
        have := h (k, some j) (by simp) j rfl
        simp only [render, List.filterMap_cons, Option.map_some, List.filterMap_nil, List.cons_append, List.nil_append, heightM]
        simp only [render] at h1
        omega
  omega

/-! ## The trees as optional members -/

section
variable (td fr)

/-- Members of the limitation object. -/
def limSlots (l : Limitation) : List (Bytes × Option Json) :=
  let pos := fun n : Int => if 0 < n then some (numJ td fr n) else none
  [(c!"max_message_length", pos l.maxMessageLength), (c!"max_subscriptions", pos l.maxSubscriptions),
    (c!"max_filters", pos l.maxFilters), (c!"max_limit", pos l.maxLimit), (c!"max_subid_length", pos l.maxSubidLength),
    (c!"max_event_tags", pos l.maxEventTags), (c!"max_content_length", pos l.maxContentLength),
    (c!"min_pow_difficulty", pos l.minPow), (c!"auth_required", some (if l.authRequired then .tru else .fls)),
    (c!"payment_required", some (if l.paymentRequired then .tru else .fls)),
    (c!"restricted_writes", some (if l.restrictedWrites then .tru else .fls)),
    (c!"created_at_lower_limit", pos l.createdLower), (c!"created_at_upper_limit", pos l.createdUpper),
    (c!"default_limit", pos l.defaultLimit)]

theorem lim_eq (l : Limitation) : limTree td fr l = .obj (render (limSlots td fr l)) := by
  unfold limTree
  simp only [posM_render, boolM_render, ← render_append]
  rfl

theorem lim_names (l : Limitation) : ((limSlots td fr l).map fun p => p.1.map lowerC).Nodup := by
  simp only [limSlots, List.map_cons, List.map_nil]
  decide +kernel

/-- Members of a retention rule. -/
def retSlots (x : Retention) : List (Bytes × Option Json) :=
  [(c!"kinds", if x.kinds = [] then none else some (.arr (x.kinds.map (numJ td fr)))),
    (c!"time", if x.time ≠ 0 then some (numJ td fr x.time) else none),
    (c!"count", if 0 < x.count then some (numJ td fr x.count) else none)]

theorem ret_eq (x : Retention) : retTree td fr x = .obj (render (retSlots td fr x)) := by
  unfold retTree numsM
  simp only [posM_render, if_render, if_render', ← render_append]
  rfl

/-- Members of a fee. -/
def feeSlots (period kinds : Bool) (f : Fee) : List (Bytes × Option Json) :=
  [(c!"kinds", if (if kinds then f.kinds else []) = [] then none else some (.arr ((if kinds then f.kinds else []).map (numJ td fr)))),
    (c!"amount", some (numJ td fr f.amount)), (c!"unit", f.unit.map .str),
    (c!"period", if 0 < (if period then (f.period : Int) else 0) then some (numJ td fr (if period then (f.period : Int) else 0)) else none)]

theorem adm_eq (f : Fee) : admTree td fr f = .obj (render (feeSlots td fr false false f)) := by
  unfold admTree
  rw [strM_render, one_render, ← render_append]
  simp only [feeSlots, render]
  cases f.unit <;> simp

theorem sub_eq (f : Fee) : subTree td fr f = .obj (render (feeSlots td fr true false f)) := by
  unfold subTree
  rw [strM_render, one_render, posM_render, ← render_append, ← render_append]
  simp only [feeSlots, render]
  cases f.unit <;> simp

theorem pub_eq (f : Fee) : pubTree td fr f = .obj (render (feeSlots td fr false true f)) := by
  unfold pubTree numsM
  rw [strM_render, if_render, one_render, ← render_append, ← render_append]
  simp only [feeSlots, render]
  cases f.unit <;> simp [List.filterMap_cons]

/-- Members of the fees. -/
def feesSlots (i : Info) : List (Bytes × Option Json) :=
  [(c!"admission", if i.admission = [] then none else some (.arr (i.admission.map (admTree td fr)))),
    (c!"subscription", if i.subscription = [] then none else some (.arr (i.subscription.map (subTree td fr)))),
    (c!"publication", if i.publication = [] then none else some (.arr (i.publication.map (pubTree td fr))))]

/-- Members of the document. -/
def infoSlots (i : Info) : List (Bytes × Option Json) :=
  let strs := fun l : List Bytes => if l = [] then none else some (Json.arr (l.map .str))
  [(c!"name", i.name.map .str), (c!"description", i.description.map .str), (c!"banner", i.banner.map .str),
    (c!"icon", i.icon.map .str), (c!"pubkey", i.pubkey.map .str), (c!"self", i.selfPubkey.map .str),
    (c!"contact", i.contact.map .str), (c!"supported_nips", some (.arr (i.nips.map (numJ td fr)))),
    (c!"software", i.software.map .str), (c!"version", i.version.map .str), (c!"privacy_policy", i.privacy.map .str),
    (c!"terms_of_service", i.terms.map .str), (c!"limitation", some (limTree td fr i.limitation)),
    (c!"retention", if i.retention = [] then none else some (.arr (i.retention.map (retTree td fr)))),
    (c!"relay_countries", strs i.countries), (c!"language_tags", strs i.languages), (c!"tags", strs i.tags),
    (c!"posting_policy", i.policy.map .str), (c!"payments_url", i.payments.map .str),
    (c!"fees", if i.admission = [] ∧ i.subscription = [] ∧ i.publication = [] then none
      else some (.obj (render (feesSlots td fr i))))]

theorem fees_eq (i : Info) : feesTree td fr i = render [(c!"fees",
    if i.admission = [] ∧ i.subscription = [] ∧ i.publication = [] then none
      else some (.obj (render (feesSlots td fr i))))] := by
  have h : feesM (c!"admission") (admTree td fr) i.admission ++ feesM (c!"subscription") (subTree td fr) i.subscription ++
      feesM (c!"publication") (pubTree td fr) i.publication = render (feesSlots td fr i) := by
    unfold feesM
    simp only [if_render, ← render_append]
    rfl
  unfold feesTree
  rw [h]
  exact if_render _ _

theorem strsM_render (k : Bytes) (l : List Bytes) :
    strsM k l = render [(k, if l = [] then none else some (.arr (l.map .str)))] := if_render _ _

theorem info_eq (i : Info) : infoTree td fr i = .obj (render (infoSlots td fr i)) := by
  unfold infoTree
  rw [fees_eq]
  simp only [strM_render, strsM_render, if_render]
  simp only [one_render, ← render_append]
  simp only [infoSlots, List.cons_append, List.nil_append]

theorem info_names (i : Info) : ((infoSlots td fr i).map fun p => p.1.map lowerC).Nodup := by
  simp only [infoSlots, List.map_cons, List.map_nil]
  decide +kernel

end

theorem limits_of {l : Limitation} (h : ∀ n ∈ [l.maxMessageLength, l.maxSubscriptions, l.maxFilters, l.maxLimit,
    l.maxSubidLength, l.maxEventTags, l.maxContentLength, l.minPow, l.createdLower, l.createdUpper, l.defaultLimit],
    n.natAbs < 10 ^ 15) : Limits real l (limTree td fr l) := by
  rw [lim_eq]
  have hd := lim_names td fr l
  constructor
  case auth => exact get_render hd (by simp [limSlots])
  case payment => exact get_render hd (by simp [limSlots])
  case restricted => exact get_render hd (by simp [limSlots])
  all_goals exact limit_of (td := td) (fr := fr) hd (h _ (by simp)) (by simp [limSlots])

theorem rule_of {x : Retention} (h1 : ∀ n ∈ x.kinds, n.natAbs < 10 ^ 15) (h2 : x.time.natAbs < 10 ^ 15)
    (h3 : x.count.natAbs < 10 ^ 15) : Rule real x (retTree td fr x) := by
  rw [ret_eq]
  have hd : ((retSlots td fr x).map fun p => p.1.map lowerC).Nodup := by
    simp only [retSlots, List.map_cons, List.map_nil]; decide +kernel
  constructor
  · exact nums_of (td := td) (fr := fr) hd h1 (by simp [retSlots])
  · have := get_render (k := c!"time") hd (List.mem_cons_of_mem _ (List.mem_cons_self ..))
    split
    · rename_i h0
      rwa [if_neg (by simp [h0])] at this
    · rename_i h0
      rw [if_pos h0] at this
      exact ⟨_, this, isNum h2⟩
  · exact limit_of (td := td) (fr := fr) hd h3 (by simp [retSlots])

theorem charge_of {f : Fee} (h1 : ∀ n ∈ f.kinds, n.natAbs < 10 ^ 15) (h2 : f.amount < 10 ^ 15)
    (h3 : f.period < 10 ^ 15) (period kinds : Bool) :
    Charge real period kinds f (.obj (render (feeSlots td fr period kinds f))) := by
  have hd : ((feeSlots td fr period kinds f).map fun p => p.1.map lowerC).Nodup := by
    simp only [feeSlots, List.map_cons, List.map_nil]; decide +kernel
  constructor
  · exact ⟨_, get_render (k := c!"amount") hd (List.mem_cons_of_mem _ (List.mem_cons_self ..)), isNum (by omega)⟩
  · exact get_render hd (by simp [feeSlots])
  · refine limit_of (td := td) (fr := fr) hd ?_ (by simp [feeSlots])
    cases period
    · simp
    · simp only [if_true]; omega
  · refine nums_of (td := td) (fr := fr) hd ?_ (by simp [feeSlots])
    cases kinds
    · simp
    · exact h1

theorem document_of {i : Info} (hu : Usual i) : Document real i (infoTree td fr i) := by
  rw [info_eq]
  have hd := info_names td fr i
  constructor
  case nips => exact ⟨_, get_render (k := c!"supported_nips") (o := some (.arr (i.nips.map (numJ td fr)))) hd (by simp [infoSlots]), isNums hu.nips⟩
  case limitation => exact ⟨_, get_render (k := c!"limitation") (o := some (limTree td fr i.limitation)) hd (by simp [infoSlots]), limits_of hu.limits⟩
  case retention =>
    exact each_of (g := retTree td fr) hd (fun x hx => rule_of (hu.retention x hx).1 (hu.retention x hx).2.1 (hu.retention x hx).2.2) (by simp [infoSlots])
  case fees =>
    have := get_render (k := c!"fees") hd (by simp [infoSlots]; exact rfl)
    split
    · rename_i h0
      rwa [if_pos h0] at this
    · rename_i h0
      rw [if_neg h0] at this
      have hd2 : ((feesSlots td fr i).map fun p => p.1.map lowerC).Nodup := by
        simp only [feesSlots, List.map_cons, List.map_nil]; decide +kernel
      refine ⟨_, this, ?_, ?_, ?_⟩
      · refine each_of (g := admTree td fr) hd2 (fun f hf => ?_) (by simp [feesSlots])
        have := hu.fees i.admission (by simp) f hf
        rw [adm_eq]
        exact charge_of this.1 this.2.1 this.2.2.1 _ _
      · refine each_of (g := subTree td fr) hd2 (fun f hf => ?_) (by simp [feesSlots])
        have := hu.fees i.subscription (by simp) f hf
        rw [sub_eq]
        exact charge_of this.1 this.2.1 this.2.2.1 _ _
      · refine each_of (g := pubTree td fr) hd2 (fun f hf => ?_) (by simp [feesSlots])
        have := hu.fees i.publication (by simp) f hf
        rw [pub_eq]
        exact charge_of this.1 this.2.1 this.2.2.1 _ _
  all_goals exact get_render hd (by simp [infoSlots])

/-! ## The trees can be printed and read back -/

theorem str_ok {o : Option Bytes} (h : ∀ s ∈ o, CStr s) : ∀ j ∈ o.map Json.str, Good j ∧ height j ≤ 0 := by
  cases o with
  | none => simp
  | some s => simp only [Option.map_some, Option.mem_def, Option.some.injEq]; rintro j rfl; exact ⟨h s rfl, Nat.le_refl 0⟩

theorem pos_ok {n : Int} (h : n.natAbs < 10 ^ 15) (c : Prop) [Decidable c] :
    ∀ j ∈ (if c then some (numJ td fr n) else none), Good j ∧ height j ≤ 0 := by
  intro j hj
  split at hj
  · simp only [Option.mem_def, Option.some.injEq] at hj; subst hj; exact ⟨good_num h, Nat.le_refl 0⟩
  · simp at hj

theorem bool_ok (b : Bool) : ∀ j ∈ some (if b then Json.tru else .fls), Good j ∧ height j ≤ 0 := by
  intro j hj
  simp only [Option.mem_def, Option.some.injEq] at hj
  subst hj
  cases b <;> exact ⟨trivial, Nat.le_refl 0⟩

theorem arr_ok {α : Type} {g : α → Json} {l : List α} {n : Nat} (h : ∀ x ∈ l, Good (g x) ∧ height (g x) ≤ n) (c : Prop) [Decidable c] :
    ∀ j ∈ (if c then none else some (Json.arr (l.map g))), Good j ∧ height j ≤ 1 + n := by
  intro j hj
  split at hj
  · simp at hj
  · simp only [Option.mem_def, Option.some.injEq] at hj
    subst hj
    simp only [Good, height]
    exact ⟨goodL_map fun x hx => (h x hx).1, by have := heightL_map fun x hx => (h x hx).2; omega⟩

theorem obj_ok {l : List (Bytes × Option Json)} {n : Nat} (hk : ∀ p ∈ l, CStr p.1) (h : ∀ p ∈ l, ∀ j ∈ p.2, Good j ∧ height j ≤ n) :
    Good (.obj (render l)) ∧ height (.obj (render l)) ≤ 1 + n :=
  ⟨good_render hk fun p hp j hj => (h p hp j hj).1, height_render fun p hp j hj => (h p hp j hj).2⟩

theorem up {o : Option Json} {n m : Nat} (hm : n ≤ m) (h : ∀ j ∈ o, Good j ∧ height j ≤ n) : ∀ j ∈ o, Good j ∧ height j ≤ m :=
  fun j hj => ⟨(h j hj).1, Nat.le_trans (h j hj).2 hm⟩

theorem lim_ok {l : Limitation} (h : ∀ n ∈ [l.maxMessageLength, l.maxSubscriptions, l.maxFilters, l.maxLimit,
    l.maxSubidLength, l.maxEventTags, l.maxContentLength, l.minPow, l.createdLower, l.createdUpper, l.defaultLimit],
    n.natAbs < 10 ^ 15) : Good (limTree td fr l) ∧ height (limTree td fr l) ≤ 1 := by
  rw [lim_eq]
  refine obj_ok (n := 0) ?_ ?_
  · simp only [limSlots, List.forall_mem_cons]; refine ⟨?_, ?_, ?_, ?_, ?_, ?_, ?_, ?_, ?_, ?_, ?_, ?_, ?_, ?_, by simp⟩ <;> decide
  · simp only [limSlots, List.forall_mem_cons]
    refine ⟨?_, ?_, ?_, ?_, ?_, ?_, ?_, ?_, bool_ok _, bool_ok _, bool_ok _, ?_, ?_, ?_, by simp⟩ <;>
      exact pos_ok (h _ (by simp)) _

theorem ret_ok {x : Retention} (h1 : ∀ n ∈ x.kinds, n.natAbs < 10 ^ 15) (h2 : x.time.natAbs < 10 ^ 15)
    (h3 : x.count.natAbs < 10 ^ 15) : Good (retTree td fr x) ∧ height (retTree td fr x) ≤ 2 := by
  rw [ret_eq]
  refine obj_ok (n := 1) ?_ ?_
  · simp only [retSlots, List.forall_mem_cons]; refine ⟨?_, ?_, ?_, by simp⟩ <;> decide
  · simp only [retSlots, List.forall_mem_cons]
    exact ⟨arr_ok (n := 0) (fun n hn => ⟨good_num (h1 n hn), Nat.le_refl 0⟩) _, up (by omega) (pos_ok h2 _), up (by omega) (pos_ok h3 _), by simp⟩

theorem fee_ok {f : Fee} (h1 : ∀ n ∈ f.kinds, n.natAbs < 10 ^ 15) (h2 : f.amount < 10 ^ 15)
    (h3 : f.period < 10 ^ 15) (h4 : ∀ s ∈ f.unit, CStr s) (period kinds : Bool) :
    Good (.obj (render (feeSlots td fr period kinds f))) ∧ height (.obj (render (feeSlots td fr period kinds f))) ≤ 2 := by
  refine obj_ok (n := 1) ?_ ?_
  · simp only [feeSlots, List.forall_mem_cons]; refine ⟨?_, ?_, ?_, ?_, by simp⟩ <;> decide
  · simp only [feeSlots, List.forall_mem_cons]
    refine ⟨arr_ok (n := 0) (fun n hn => ⟨good_num ?_, Nat.le_refl 0⟩) _, ?_, up (by omega) (str_ok h4), up (by omega) (pos_ok ?_ _), by simp⟩
    · cases kinds
      · simp at hn
      · exact h1 n hn
    · have := pos_ok (td := td) (fr := fr) (n := (f.amount : Int)) (by omega) True
      rw [if_pos trivial] at this
      exact up (by omega) this
    · cases period
      · simp
      · simp only [if_true]; omega

theorem info_ok {i : Info} (hu : Usual i) : Good (infoTree td fr i) ∧ height (infoTree td fr i) ≤ 5 := by
  rw [info_eq]
  refine obj_ok (n := 4) ?_ ?_
  · simp only [infoSlots, List.forall_mem_cons]
    refine ⟨?_, ?_, ?_, ?_, ?_, ?_, ?_, ?_, ?_, ?_, ?_, ?_, ?_, ?_, ?_, ?_, ?_, ?_, ?_, ?_, by simp⟩ <;> decide
  · simp only [infoSlots, List.forall_mem_cons]
    have t : ∀ {o : Option Bytes}, o ∈ [i.name, i.description, i.banner, i.icon, i.pubkey, i.selfPubkey, i.contact, i.software, i.version,
        i.privacy, i.terms, i.policy, i.payments] → ∀ j ∈ o.map Json.str, Good j ∧ height j ≤ 4 :=
      fun {o} ho => up (by omega) (str_ok (hu.texts o ho))
    have l : ∀ {l : List Bytes}, l ∈ [i.countries, i.languages, i.tags] →
        ∀ j ∈ (if l = [] then none else some (Json.arr (l.map .str))), Good j ∧ height j ≤ 4 :=
      fun {l} hl => up (by omega) (arr_ok (g := Json.str) (n := 0) (fun s hs => ⟨hu.lists l hl s hs, Nat.le_refl 0⟩) _)
    refine ⟨t (by simp), t (by simp), t (by simp), t (by simp), t (by simp), t (by simp), t (by simp), ?_,
      t (by simp), t (by simp), t (by simp), t (by simp), ?_, ?_, l (by simp), l (by simp), l (by simp),
      t (by simp), t (by simp), ?_, by simp⟩
    · have := arr_ok (g := numJ td fr) (l := i.nips) (n := 0) (fun n hn => ⟨good_num (hu.nips n hn), Nat.le_refl 0⟩) False
      rw [if_neg (by simp)] at this
      exact up (by omega) this
    · intro j hj
      simp only [Option.mem_def, Option.some.injEq] at hj
      subst hj
      have := lim_ok (td := td) (fr := fr) hu.limits
      exact ⟨this.1, by omega⟩
    · exact up (by omega) (arr_ok (n := 2) (fun x hx => ret_ok (hu.retention x hx).1 (hu.retention x hx).2.1 (hu.retention x hx).2.2) _)
    · intro j hj
      split at hj
      · simp at hj
      · simp only [Option.mem_def, Option.some.injEq] at hj
        subst hj
        refine obj_ok (n := 3) ?_ ?_
        · simp only [feesSlots, List.forall_mem_cons]; refine ⟨?_, ?_, ?_, by simp⟩ <;> decide
        · simp only [feesSlots, List.forall_mem_cons]
          refine ⟨arr_ok (n := 2) (fun f hf => ?_) _, arr_ok (n := 2) (fun f hf => ?_) _, arr_ok (n := 2) (fun f hf => ?_) _, by simp⟩
          · have := hu.fees i.admission (by simp) f hf
            rw [adm_eq]
            exact fee_ok this.1 this.2.1 this.2.2.1 this.2.2.2 _ _
          · have := hu.fees i.subscription (by simp) f hf
            rw [sub_eq]
            exact fee_ok this.1 this.2.1 this.2.2.1 this.2.2.2 _ _
          · have := hu.fees i.publication (by simp) f hf
            rw [pub_eq]
            exact fee_ok this.1 this.2.1 this.2.2.1 this.2.2.2 _ _

theorem back {j : Json} (h : Good j ∧ height j ≤ 5) : parse (print false 0 j) = some j := by
  have := parse_print false 0 j h.1 (by have := h.2; unfold nestingLimit; omega) [] (by intro c hc; simp at hc)
  rwa [List.append_nil] at this

/-! ## C72: the buffer -/

/-- What a caller relies on when a text is written into its buffer: nothing is written behind it; the length
reported is that of the text; if the text and its terminator fit, they are at the start and the rest of the buffer
is as before, else the buffer is untouched. -/
structure Wrote (text buf : Bytes) (o : Out) : Prop where
  safe : o.code ≠ .ub
  size : o.buf.length = buf.length
  len : buf.length ≠ 0 → o.len = some text.length
  fits : text.length < buf.length → o.code = .ok () ∧ o.buf.take (text.length + 1) = text ++ [0] ∧
    o.buf.drop (text.length + 1) = buf.drop (text.length + 1)
  small : buf.length ≤ text.length → o.code ≠ .ok () ∧ o.buf = buf

theorem wrote_emit (text buf : Bytes) : Wrote text buf (emit text buf) := by
  unfold emit
  by_cases h : text.length ≥ buf.length
  · rw [if_pos h]
    exact ⟨by simp, rfl, fun _ => rfl, fun h' => by omega, fun _ => ⟨by simp, rfl⟩⟩
  · rw [if_neg h, if_neg (by omega)]
    refine ⟨by simp, ?_, fun _ => rfl, fun _ => ⟨rfl, ?_, ?_⟩, fun h' => by omega⟩
    · simp only [List.length_append, List.length_drop, List.length_singleton]; omega
    · rw [List.take_append_of_le_length (by simp), List.take_of_length_le (by simp)]
    · rw [List.drop_append_of_le_length (by simp), List.drop_of_length_le (by simp)]; simp

theorem wrote_empty (text : Bytes) {buf : Bytes} (h : buf.length = 0) : Wrote text buf ⟨.err (.relay .invalidJson), none, buf⟩ :=
  ⟨by simp, rfl, fun h' => absurd h h', fun h' => by omega, fun _ => ⟨by simp, rfl⟩⟩

/-- C72: serialising a document into a buffer of any size never writes behind it and reports the length of the
text; the text is the same for all buffers, so a buffer of one byte more than reported suffices. -/
theorem C72_buffer (td : Int → Int) (fr : Int → Bytes) (i : Info) : ∃ text, ∀ buf, Wrote text buf (infoSerialize td fr i buf) := by
  refine ⟨print false 0 (infoTree td fr i), fun buf => ?_⟩
  unfold infoSerialize
  split
  · exact wrote_empty _ (by assumption)
  · exact wrote_emit _ _

/-- C72: the same for the limits alone. -/
theorem C72_limitation_buffer (td : Int → Int) (fr : Int → Bytes) (l : Limitation) :
    ∃ text, ∀ buf, Wrote text buf (limSerialize td fr l buf) := by
  refine ⟨print false 0 (limTree td fr l), fun buf => ?_⟩
  unfold limSerialize
  split
  · exact wrote_empty _ (by assumption)
  · exact wrote_emit _ _

/-- A buffer that is too small, and the second attempt. -/
example : (limSerialize id (fun _ => []) ⟨0, 20, 0, 0, 0, 0, 0, 0, true, false, false, 0, 0, 0⟩ (List.replicate 10 7)).len = some 96 ∧
    (limSerialize id (fun _ => []) ⟨0, 20, 0, 0, 0, 0, 0, 0, true, false, false, 0, 0, 0⟩ (List.replicate 97 7)).code = .ok () := by
  decide +kernel

/-! ## C72: the list of supported NIPs -/

/-- A call on the list, with the outcome of its allocation. -/
inductive Op
  | set (l : List Int) (mem : Bool)
  | add (n : Int) (mem : Bool)

/-- Model: the state after a call. -/
def step (junk : Int) (s : Nips) : Op → Res Nips × Nips
  | .set l mem => setNips s (.other l) l.length mem
  | .add n mem => addNip junk s n mem

/-- Specification: the list after a call. If memory is short, setting leaves an empty list and adding changes
nothing. -/
def meaning (l : List Int) : Op → List Int
  | .set new mem => if mem then new else []
  | .add n mem => if mem then l ++ [n] else l

/-- The list a reader finds: as many elements of the array as the count says. -/
def Shows (s : Nips) (l : List Int) : Prop := s.count = l.length ∧ s.arr.getD [] = l

theorem step_shows {junk : Int} {s : Nips} {l : List Int} (h : Shows s l) (op : Op) :
    (step junk s op).1 ≠ .ub ∧ Shows (step junk s op).2 (meaning l op) := by
  obtain ⟨h1, h2⟩ := h
  cases op with
  | set new mem =>
    simp only [step, setNips, meaning]
    by_cases h0 : new.length = 0
    · rw [if_pos h0]
      have : new = [] := List.length_eq_zero_iff.1 h0
      subst this
      refine ⟨by simp, ?_⟩
      cases mem <;> exact ⟨rfl, rfl⟩
    · rw [if_neg h0]
      cases mem with
      | false => exact ⟨by simp, rfl, rfl⟩
      | true =>
        simp only [Bool.true_eq_false, if_false, Nat.lt_irrefl, if_true]
        exact ⟨by simp, rfl, by simp⟩
  | add n mem =>
    simp only [step, addNip, meaning]
    cases mem with
    | false => exact ⟨by simp, h1, h2⟩
    | true =>
      have ha : realloc junk s.arr (s.count + 1) = l ++ [junk] := by
        unfold realloc
        rw [h2, h1, List.take_append, List.take_of_length_le (by omega), List.take_replicate]
        congr 1
        rw [show min (l.length + 1 - l.length) (l.length + 1) = 1 by omega]
        rfl
      simp only [Bool.true_eq_false, if_false, if_true, ha]
      rw [if_pos (by simp; omega)]
      refine ⟨by simp, ?_, ?_⟩
      · simp [h1]
      · simp only [Option.getD_some]
        rw [h1, List.set_append_right _ _ (Nat.le_refl _)]
        simp

/-- C72: after any sequence of calls that set the list or add to it, whichever allocations fail, the document holds
exactly the list these calls mean, in order, and no call goes out of bounds. -/
theorem C72_nips (junk : Int) (ops : List Op) :
    Shows (ops.foldl (fun s op => (step junk s op).2) ⟨none, 0⟩) (ops.foldl meaning []) ∧
      ∀ before op after, ops = before ++ op :: after →
        (step junk (before.foldl (fun s op => (step junk s op).2) ⟨none, 0⟩) op).1 ≠ .ub := by
  have key : ∀ (ops : List Op) (s : Nips) (l : List Int), Shows s l →
      Shows (ops.foldl (fun s op => (step junk s op).2) s) (ops.foldl meaning l) := by
    intro ops
    induction ops with
    | nil => intro s l h; exact h
    | cons op ops ih => intro s l h; exact ih _ _ (step_shows h op).2
  refine ⟨key ops _ _ ⟨rfl, rfl⟩, ?_⟩
  rintro before op after rfl
  exact (step_shows (key before _ _ ⟨rfl, rfl⟩) op).1

example : ([Op.set [1, 9] true, Op.add 11 true, Op.add 5 false].foldl (fun s op => (step 0 s op).2) ⟨none, 0⟩) = ⟨some [1, 9, 11], 3⟩ := by
  decide

/-- C72 fails when the argument is the document's own array: it is freed before it is copied. -/
theorem C72_own_refuted : ∃ s : Nips, Shows s [1, 9, 11] ∧ (setNips s .own 2 true).1 = .ub :=
  ⟨⟨some [1, 9, 11], 3⟩, ⟨rfl, rfl⟩, rfl⟩

/-! ## C115: the document -/

/-- C115: a document that is serialised is JSON text in which a reader finds exactly the members that are set, with
their values: texts, list of NIPs, positive limits, flags, retention rules and fees, in order. Missing: numbers of
more than 15 digits, and rules with time zero (`C115_zero_refuted`). -/
theorem C115_document_partial (td : Int → Int) (fr : Int → Bytes) (real : Bytes → Int) {i : Info} (hu : Usual i) {buf : Bytes}
    (h : (infoSerialize td fr i buf).code = .ok ()) :
    ∃ text root, (infoSerialize td fr i buf).buf.take (text.length + 1) = text ++ [0] ∧
      parse text = some root ∧ Document real i root := by
  refine ⟨print false 0 (infoTree td fr i), infoTree td fr i, ?_, ?_, document_of hu⟩
  · have hw : Wrote (print false 0 (infoTree td fr i)) buf (infoSerialize td fr i buf) := by
      unfold infoSerialize
      split
      · exact wrote_empty _ (by assumption)
      · exact wrote_emit _ _
    by_cases hl : (print false 0 (infoTree td fr i)).length < buf.length
    · exact (hw.fits hl).2.1
    · exact absurd h (hw.small (by omega)).1
  · exact back (info_ok hu)

/-- C115: the same for the limits alone. -/
theorem C115_limits (td : Int → Int) (fr : Int → Bytes) (real : Bytes → Int) {l : Limitation}
    (hl : ∀ n ∈ [l.maxMessageLength, l.maxSubscriptions, l.maxFilters, l.maxLimit,
      l.maxSubidLength, l.maxEventTags, l.maxContentLength, l.minPow, l.createdLower, l.createdUpper, l.defaultLimit],
      n.natAbs < 10 ^ 15) {buf : Bytes} (h : (limSerialize td fr l buf).code = .ok ()) :
    ∃ text root, (limSerialize td fr l buf).buf.take (text.length + 1) = text ++ [0] ∧
      parse text = some root ∧ Limits real l root := by
  refine ⟨print false 0 (limTree td fr l), limTree td fr l, ?_, ?_, limits_of hl⟩
  · have hw : Wrote (print false 0 (limTree td fr l)) buf (limSerialize td fr l buf) := by
      unfold limSerialize
      split
      · exact wrote_empty _ (by assumption)
      · exact wrote_emit _ _
    by_cases hl : (print false 0 (limTree td fr l)).length < buf.length
    · exact (hw.fits hl).2.1
    · exact absurd h (hw.small (by omega)).1
  · exact back ⟨(lim_ok hl).1, Nat.le_trans (lim_ok hl).2 (by decide)⟩

/-- A document of the examples. -/
def sample : Info :=
  { info0 with name := some (c!"relay"), nips := [1, 11], retention := [⟨[0, 3], 3600, 5⟩], tags := [c!"sfw"],
               subscription := [⟨3000, some (c!"sats"), 2628003, []⟩], publication := [⟨100, some (c!"msats"), 0, [4]⟩] }

/-- The hypotheses are met. -/
example : Usual sample ∧ (infoSerialize id (fun _ => []) sample (List.replicate 600 0)).code = .ok () := by
  refine ⟨⟨?_, ?_, ?_, ?_, ?_, ?_⟩, by decide +kernel⟩
  · simp [sample, info0, CStr]
  · simp [sample, info0, CStr]
  · simp [sample]
  · simp [sample, info0, limitation0]
  · simp [sample]
  · simp [sample, info0, CStr]

/-- C115 fails for retention rules with time zero, which mean that such events are not stored (NIP-11): the reader
finds no time, as if the events were kept without limit of time. -/
theorem C115_zero_refuted {td : Int → Int} {fr : Int → Bytes} (kinds : List Int) (count : Int) :
    get (retTree td fr ⟨kinds, 0, count⟩) (c!"time") = none := by
  rw [ret_eq]
  have hd : ((retSlots td fr ⟨kinds, 0, count⟩).map fun p => p.1.map lowerC).Nodup := by
    simp only [retSlots, List.map_cons, List.map_nil]; decide +kernel
  have := get_render (k := c!"time") hd (List.mem_cons_of_mem _ (List.mem_cons_self ..))
  rwa [if_neg (by simp)] at this

end Nostr.Nip11.Props
