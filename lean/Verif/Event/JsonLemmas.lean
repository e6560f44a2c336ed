import Verif.Event.Lemmas

/-! # Helper lemmas: event JSON round trip, NIP-01 text -/

namespace Nostr.Event
open Nostr Nostr.Json Spec

/-! ## NIP-01 text -/

theorem escChar_nip01 : ∀ n < 256, ¬ RareControl (UInt8.ofNat n) → escChar (UInt8.ofNat n) =
    (fun c : UInt8 => if c = 0x0a then c!"\\n" else if c = 0x22 then c!"\\\"" else if c = 0x5c then c!"\\\\"
    else if c = 0x0d then c!"\\r" else if c = 0x09 then c!"\\t" else if c = 0x08 then c!"\\b"
    else if c = 0x0c then c!"\\f" else [c]) (UInt8.ofNat n) := by
  unfold RareControl; decide +kernel

theorem quoted_nip01 {s : Bytes} (h : ∀ c ∈ s, ¬ RareControl c) : quoted s = nip01String s := by
  unfold quoted nip01String escape
  rw [List.cons_append, List.append_assoc, List.singleton_append]
  congr 1
  congr 1
  induction s with
  | nil => rfl
  | cons c s ih =>
    have h1 := escChar_nip01 c.toNat c.toNat_lt
    rw [UInt8.ofNat_toNat] at h1
    rw [List.flatMap_cons, List.flatMap_cons, h1 (h c (by simp)), ih (fun d hd => h d (by simp [hd]))]

theorem valuesText_nip01 {vs : List Bytes} (h : ∀ v ∈ vs, ∀ c ∈ v, ¬ RareControl c) :
    valuesText true vs = commaSep (vs.map nip01String) := by
  induction vs with
  | nil => rfl
  | cons v vs ih =>
    have h1 := quoted_nip01 (h v (by simp))
    have h2 := ih (fun x hx => h x (by simp [hx]))
    cases vs with
    | nil => simp [valuesText, commaSep, h1]
    | cons w ws =>
      simp only [List.map_cons, commaSep, valuesText, if_true, List.nil_append, h1,
        Bool.false_eq_true, if_false] at h2 ⊢
      rw [← h2]
      simp

theorem tagsText_nip01 {ts : List (List Bytes)} (h : ∀ t ∈ ts, ∀ v ∈ t, ∀ c ∈ v, ¬ RareControl c) :
    tagsText true ts = commaSep (ts.map fun t => c!"[" ++ commaSep (t.map nip01String) ++ c!"]") := by
  induction ts with
  | nil => rfl
  | cons t ts ih =>
    have h1 := valuesText_nip01 (h t (by simp))
    have h2 := ih (fun x hx => h x (by simp [hx]))
    cases ts with
    | nil => simp [tagsText, commaSep, h1]
    | cons w ws =>
      simp only [List.map_cons, commaSep, tagsText, if_true, List.nil_append, h1,
        Bool.false_eq_true, if_false] at h2 ⊢
      rw [← h2]
      simp

theorem idText_nip01 {e : Event} (h1 : ∀ c ∈ e.text, ¬ RareControl c)
    (h2 : ∀ t ∈ e.tags, ∀ v ∈ t, ∀ c ∈ v, ¬ RareControl c) :
    idText e = nip01 (Hex.Spec.hexText e.pubkey) (Num.decInt e.createdAt) (Num.decNat e.kind) e.tags e.text := by
  unfold idText nip01
  rw [← quoted_nip01 h1, ← tagsText_nip01 h2, Hex.hexEncode_eq]
  simp [quoted]

/-! ## Reading back -/

theorem plainInt_decInt {n : Int} (h : n.natAbs < 10 ^ 15) : plainInt (Num.decInt n) = some n := by
  unfold plainInt Num.decInt
  have hl := Num.decNat_length (k := 15) (by omega) h
  have hd := Num.decNat_digits n.natAbs
  have hne := Num.decNat_ne n.natAbs
  split
  · have h2 : (Num.decNat n.natAbs).all Num.isDigit = true := by rw [List.all_eq_true]; exact hd
    simp only [List.head?_cons, BEq.rfl, if_true, List.tail_cons, Num.natOf_decNat]
    rw [if_pos ⟨hne, hl, h2⟩]
    congr 1; omega
  · have h2 : (Num.decNat n.natAbs).all Num.isDigit = true := by rw [List.all_eq_true]; exact hd
    have h3 : ((Num.decNat n.natAbs).head? == some (0x2d : UInt8)) = false := by
      rw [beq_eq_false_iff_ne]
      intro h
      have := hd _ (List.mem_of_head? h)
      revert this; decide
    simp only [h3, Bool.false_eq_true, if_false, Num.natOf_decNat]
    rw [if_pos ⟨hne, hl, h2⟩]
    congr 1; omega

theorem int64_decInt (real : Bytes → Int) {n : Int} (h : n.natAbs < 10 ^ 15) :
    int64 real (Num.decInt n) = n := by
  unfold int64; rw [plainInt_decInt h]; rfl

theorem valueint_decNat (real : Bytes → Int) {n : Nat} (h : n < 65536) :
    (valueint real (Num.decNat n) % 65536).toNat = n := by
  unfold valueint
  rw [← decInt_nat, int64_decInt real (by omega)]
  simp only
  rw [if_neg (by omega), if_neg (by omega)]
  omega

theorem hexToBytes_encode (lax : Bool) {b : Bytes} {n : Nat} (h : b.length = n) :
    hexToBytes lax (Hex.hexEncode b) n = some b := by
  unfold hexToBytes
  have hl := hexEncode_length b
  rw [if_neg (by omega)]
  have h2 : Hex.pairs (Hex.hexEncode b) = some b := by
    rw [Hex.hexEncode_eq]
    exact (Hex.pairs_iff _ _ (by rw [Hex.hexText_length]; omega)).2 (Hex.lowerHex_hexText b)
  rw [Hex.keyLoop_digits lax n _ _ (by omega) h2]

theorem tagValues_str (t : List Bytes) : tagValues (t.map .str) = t := by
  unfold tagValues
  rw [List.map_map]
  conv => rhs; rw [← List.map_id t]
  rfl

theorem addTags_back (cfg : Option Config.Config) : ∀ (ts : List (List Bytes)) (e : Event),
    (∀ t ∈ ts, t ≠ []) → (∀ c ∈ cfg, e.tags.length + ts.length ≤ c.maxTags) →
    addTags cfg e (ts.map fun t => .arr (t.map .str)) = .ok { e with tags := e.tags ++ ts } := by
  intro ts
  induction ts with
  | nil => intro e _ _; simp [addTags]
  | cons t ts ih =>
    intro e hne hc
    have ht := hne t (by simp)
    obtain ⟨v, vs, rfl⟩ := List.exists_cons_of_ne_nil ht
    have h1 : cfg.any (fun c => decide (e.tags.length ≥ c.maxTags)) = false := by
      cases cfg with
      | none => rfl
      | some c =>
        have := hc c rfl
        simp only [Option.any_some, decide_eq_false_iff_not]
        simp only [List.length_cons] at this
        omega
    have h2 : addTag cfg e (v :: vs) = .ok { e with tags := e.tags ++ [v :: vs] } := by
      unfold addTag
      simp [h1]
    simp only [List.map_cons, addTags, asArr]
    have h3 : tagValues (.str v :: vs.map .str) = v :: vs := tagValues_str (v :: vs)
    rw [h3, h2]
    simp only
    rw [ih _ (fun x hx => hne x (by simp [hx])) (by
      intro c hcc
      have := hc c hcc
      simp only [List.length_append, List.length_cons, List.length_nil] at this ⊢
      omega)]
    simp

theorem good_toTree_num {td : Int → Int} {fr : Int → Bytes} {e : Event} (h : WF e) (ht : GoodNum (numTok td fr e.createdAt)) :
    Good (toTree td fr e) ∧ height (toTree td fr e) ≤ nestingLimit := by
  have hk := h.kind
  unfold toTree
  rw [numTok_small td fr (n := (e.kind : Int)) (by omega)]
  constructor
  · simp only [Good, GoodM, and_true]
    exact ⟨by decide, hexText_cstr _, by decide, hexText_cstr _, by decide, ht,
      by decide, goodNum_decInt (by omega), by decide, goodL_tags (fun t ht => (h.tags t ht).2),
      by decide, h.content, by decide, hexText_cstr _⟩
  · have := heightL_tags e.tags
    simp only [height, heightM, nestingLimit]
    omega

theorem good_toTree {td : Int → Int} {fr : Int → Bytes} {e : Event} (h : WF e)
    (ht : e.createdAt.natAbs < 10 ^ 15) :
    Good (toTree td fr e) ∧ height (toTree td fr e) ≤ nestingLimit :=
  good_toTree_num h (by rw [numTok_small td fr ht]; exact goodNum_decInt (by omega))

theorem fromTree_num (P : Plat) (cfg : Option Config.Config) (td : Int → Int) (fr : Int → Bytes)
    {e : Event} (h : WF e) (hc : ∀ c ∈ cfg, e.tags.length ≤ c.maxTags ∧ e.text.length ≤ c.maxContent) :
    fromTree P cfg (toTree td fr e) =
      .ok { e with createdAt := int64 P.real (numTok td fr e.createdAt), content := some e.text } := by
  have hk := h.kind
  have g1 : get (toTree td fr e) (c!"id") = some (.str (Hex.hexEncode e.id)) := rfl
  have g2 : get (toTree td fr e) (c!"pubkey") = some (.str (Hex.hexEncode e.pubkey)) := rfl
  have g3 : get (toTree td fr e) (c!"created_at") = some (.num (numTok td fr e.createdAt)) := rfl
  have g4 : get (toTree td fr e) (c!"kind") = some (.num (numTok td fr e.kind)) := rfl
  have g5 : get (toTree td fr e) (c!"tags") = some (.arr (e.tags.map fun t => .arr (t.map .str))) := rfl
  have g6 : get (toTree td fr e) (c!"content") = some (.str e.text) := rfl
  have g7 : get (toTree td fr e) (c!"sig") = some (.str (Hex.hexEncode e.sig)) := rfl
  have n1 : numFields P (toTree td fr e) = (int64 P.real (numTok td fr e.createdAt), e.kind) := by
    unfold numFields
    rw [g3, g4, numTok_small td fr (n := (e.kind : Int)) (by omega)]
    simp only [Option.bind_some, asNum]
    rw [decInt_nat, valueint_decNat P.real hk]
  have c1 : contentField cfg (toTree td fr e) = .ok (some e.text) := by
    unfold contentField
    rw [g6]
    simp only [Option.bind_some, asStr]
    rw [if_neg]
    cases cfg with
    | none => simp
    | some c =>
      have := (hc c rfl).2
      simp only [Option.any_some, decide_eq_true_eq]
      omega
  have t1 : ∀ x : Event, x.tags = [] → tagsField cfg (toTree td fr e) x = .ok { x with tags := e.tags } := by
    intro x hx
    unfold tagsField
    rw [g5]
    simp only [Option.bind_some, asArr]
    rw [if_neg, addTags_back cfg e.tags x (fun t ht => (h.tags t ht).1)]
    · simp [hx]
    · intro c hcc
      have := (hc c hcc).1
      simpa [hx] using this
    · cases cfg with
      | none => simp
      | some c =>
        have := (hc c rfl).1
        simp only [Option.any_some, decide_eq_true_eq, List.length_map]
        omega
  unfold fromTree
  simp only [hexField, g1, g2, g7, Option.bind_some, asStr, hexToBytes_encode P.lax0x h.id,
    hexToBytes_encode P.lax0x h.pubkey, hexToBytes_encode P.lax0x h.sig, Res.bind_ok, c1, n1]
  rw [t1 _ rfl, Res.bind_ok]

theorem fromTree_back (P : Plat) (cfg : Option Config.Config) (td : Int → Int) (fr : Int → Bytes)
    {e : Event} (h : WF e) (ht : e.createdAt.natAbs < 10 ^ 15)
    (hc : ∀ c ∈ cfg, e.tags.length ≤ c.maxTags ∧ e.text.length ≤ c.maxContent) :
    fromTree P cfg (toTree td fr e) = .ok { e with content := some e.text } := by
  rw [fromTree_num P cfg td fr h hc, numTok_small td fr ht, int64_decInt P.real ht]

/-- The preimage of the id determines the event up to the text of its time. -/
theorem idTree_num {td : Int → Int} {fr : Int → Bytes} {a b : Event} (ha : WF a) (hb : WF b) (ga : GoodNum (numTok td fr a.createdAt))
    (gb : GoodNum (numTok td fr b.createdAt)) (h : print false 0 (idTree td fr a) = print false 0 (idTree td fr b)) :
    a.pubkey = b.pubkey ∧ numTok td fr a.createdAt = numTok td fr b.createdAt ∧ a.kind = b.kind ∧ a.tags = b.tags ∧ a.text = b.text := by
  have key : ∀ {e : Event}, WF e → GoodNum (numTok td fr e.createdAt) → Good (idTree td fr e) ∧ height (idTree td fr e) ≤ nestingLimit := by
    intro e h ht
    have hk := h.kind
    unfold idTree
    rw [numTok_small td fr (n := (e.kind : Int)) (by omega), numTok_small td fr (n := 0) (by decide)]
    constructor
    · simp only [Good, GoodL, and_true]
      exact ⟨goodNum_decInt (by decide), hexText_cstr _, ht, goodNum_decInt (by omega), goodL_tags (fun t ht => (h.tags t ht).2), h.content⟩
    · have := heightL_tags e.tags
      simp only [height, heightL, nestingLimit]
      omega
  have h2 := print_inj (key ha ga).1 (key hb gb).1 (key ha ga).2 (key hb gb).2 h
  have ka := ha.kind
  have kb := hb.kind
  unfold idTree at h2
  rw [numTok_small td fr (n := (a.kind : Int)) (by omega), numTok_small td fr (n := (b.kind : Int)) (by omega), decInt_nat, decInt_nat] at h2
  simp only [Json.arr.injEq, List.cons.injEq, Json.str.injEq, Json.num.injEq, true_and, and_true] at h2
  exact ⟨hexEncode_inj h2.1, h2.2.1, Num.decNat_inj h2.2.2.1, map_tags_inj h2.2.2.2.1, h2.2.2.2.2⟩

end Nostr.Event
