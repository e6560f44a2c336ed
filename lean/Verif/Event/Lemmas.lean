import Verif.Event.Spec
import Verif.Json.Lemmas

/-! # Helper lemmas for events -/

namespace Nostr.Event
open Nostr Nostr.Json Spec

/-! ## The plain serialiser -/

/-- Text of the values of a tag. -/
def valuesText (first : Bool) : List Bytes → Bytes
  | [] => []
  | v :: vs => (if first then [] else [0x2c]) ++ quoted v ++ valuesText false vs

/-- Text of the tags. -/
def tagsText (first : Bool) : List (List Bytes) → Bytes
  | [] => []
  | t :: ts => (if first then [] else [0x2c]) ++ 0x5b :: valuesText true t ++ [0x5d] ++ tagsText false ts

/-- The writer holds exactly what was written. -/
def Wr.Sync (w : Wr) : Prop := w.buf.length = w.pos

/-- The writer after writing `t` completely. -/
def Wr.ext (w : Wr) (t : Bytes) : Wr := ⟨w.size, w.buf ++ t, w.pos + t.length⟩

@[simp] theorem ext_size (w : Wr) (t : Bytes) : (w.ext t).size = w.size := rfl
@[simp] theorem ext_pos (w : Wr) (t : Bytes) : (w.ext t).pos = w.pos + t.length := rfl
@[simp] theorem ext_ext (w : Wr) (t u : Bytes) : (w.ext t).ext u = w.ext (t ++ u) := by
  simp [Wr.ext, Nat.add_assoc]
@[simp] theorem ext_nil (w : Wr) : w.ext [] = w := by simp [Wr.ext]

theorem ext_sync {w : Wr} (h : w.Sync) (t : Bytes) : (w.ext t).Sync := by
  simp only [Wr.Sync, Wr.ext, List.length_append] at h ⊢
  rw [h]

theorem printf_fit {w : Wr} {t : Bytes} (hs : w.Sync) (h : w.pos + t.length < w.size) :
    w.printf t = .ok (w.ext t) := by
  unfold Wr.printf
  rw [if_neg (by omega), if_neg (by omega)]
  rw [List.take_of_length_le (by rw [hs]; omega), List.take_of_length_le (by omega)]
  rfl

theorem put_fit {w : Wr} {c : UInt8} (hs : w.Sync) (h : w.pos < w.size) :
    w.put c = .ok (w.ext [c]) := by
  unfold Wr.put
  rw [if_pos h, List.take_of_length_le (by rw [hs]; omega)]
  rfl

theorem comma_fit {w : Wr} (first : Bool) (hs : w.Sync) (h : w.pos < w.size) :
    (if first then .ok w else w.put 0x2c) = .ok (w.ext (if first then [] else [0x2c])) := by
  cases first
  · simp [put_fit hs h]
  · simp

theorem putValues_fit : ∀ (vs : List Bytes) (first : Bool) (w : Wr), w.Sync →
    w.pos + (valuesText first vs).length < w.size →
    putValues w first vs = .ok (w.ext (valuesText first vs)) := by
  intro vs
  induction vs with
  | nil => intro first w _ _; simp [putValues, valuesText]
  | cons v vs ih =>
    intro first w hs hl
    simp only [valuesText, List.length_append] at hl
    unfold putValues
    rw [comma_fit first hs (by omega), Res.bind_ok,
      printf_fit (ext_sync hs _) (by simp only [ext_size, ext_pos]; omega), Res.bind_ok,
      ih false _ (ext_sync (ext_sync hs _) _) (by simp only [ext_size, ext_pos]; omega)]
    simp [valuesText]

theorem putTags_fit : ∀ (ts : List (List Bytes)) (first : Bool) (w : Wr), w.Sync →
    w.pos + (tagsText first ts).length < w.size →
    putTags w first ts = .ok (w.ext (tagsText first ts)) := by
  intro ts
  induction ts with
  | nil => intro first w _ _; simp [putTags, tagsText]
  | cons t ts ih =>
    intro first w hs hl
    simp only [tagsText, List.length_append, List.length_cons, List.length_nil] at hl
    unfold putTags
    have s1 := ext_sync hs (if first then [] else [0x2c])
    have s2 := ext_sync s1 [0x5b]
    have s3 := ext_sync s2 (valuesText true t)
    rw [comma_fit first hs (by omega), Res.bind_ok, put_fit s1 (by simp only [ext_size, ext_pos]; omega),
      Res.bind_ok, putValues_fit _ _ _ s2
        (by simp only [ext_size, ext_pos, List.length_cons, List.length_nil]; omega), Res.bind_ok,
      put_fit s3 (by simp only [ext_size, ext_pos, List.length_cons, List.length_nil]; omega), Res.bind_ok,
      ih false _ (ext_sync s3 _) (by simp only [ext_size, ext_pos, List.length_cons, List.length_nil]; omega)]
    simp [tagsText]

/-- The complete text. -/
def idText (e : Event) : Bytes :=
  (c!"[0,\"" ++ Hex.hexEncode e.pubkey ++ c!"\"," ++ Num.decInt e.createdAt ++
      c!"," ++ Num.decNat e.kind ++ c!",[") ++ (tagsText true e.tags ++ (c!"],\"" ++ escape e.text ++ c!"\"]"))

theorem serializePlain_fit {e : Event} (h : (idText e).length < jsonSize e) :
    serializePlain e = .ok (idText e) := by
  unfold idText at h
  simp only [List.length_append] at h
  unfold serializePlain
  simp only
  have s0 : (Wr.mk (jsonSize e) [] 0).Sync := rfl
  rw [printf_fit s0 (by simp only [List.length_append]; omega), Res.bind_ok,
    putTags_fit _ _ _ (ext_sync s0 _) (by simp only [ext_size, ext_pos, List.length_append]; omega), Res.bind_ok,
    if_neg (by simp only [ext_size, ext_pos, List.length_append]; omega),
    printf_fit (ext_sync (ext_sync s0 _) _) (by simp only [ext_size, ext_pos, List.length_append]; omega),
    Res.bind_ok]
  simp [idText, Wr.ext]

theorem escChar_length (c : UInt8) : 1 ≤ (escChar c).length ∧ (escChar c).length ≤ 6 := by
  unfold escChar
  repeat' split
  all_goals simp

theorem escape_length (s : Bytes) : (escape s).length ≤ s.length * 6 := by
  induction s with
  | nil => simp [escape]
  | cons c s ih =>
    have := (escChar_length c).2
    simp only [escape, List.flatMap_cons, List.length_append, List.length_cons] at ih ⊢
    omega

theorem escChar_short {c : UInt8} (h : 0x20 ≤ c.toNat) : (escChar c).length ≤ 2 := by
  unfold escChar
  repeat' split
  all_goals first | (simp; done) | (exfalso; subst_vars; revert h; decide) | skip
  all_goals
    exfalso
    rename_i hc
    have : c.toNat < 0x20 := by first | exact hc | exact UInt8.lt_iff_toNat_lt.1 hc | simpa using hc
    omega

/-- What an ordinary character saves. -/
def gain (b : Bool) : Nat := if b then 0 else 4

theorem escape_gain (s : Bytes) : (escape s).length + gain (s.all fun c => c.toNat < 0x20) ≤ s.length * 6 := by
  induction s with
  | nil => simp [escape, gain]
  | cons c s ih =>
    have h1 := (escChar_length c).2
    have h2 := escape_length s
    simp only [escape, List.flatMap_cons, List.length_append, List.length_cons, List.all_cons] at ih h2 ⊢
    by_cases hc : c.toNat < 0x20
    · rw [decide_eq_true hc, Bool.true_and]
      omega
    · have h3 := escChar_short (c := c) (by omega)
      rw [decide_eq_false hc, Bool.false_and]
      simp only [gain, Bool.false_eq_true, if_false]
      omega

theorem quoted_gain (s : Bytes) : (quoted s).length + gain (s.all fun c => c.toNat < 0x20) ≤ s.length * 6 + 2 := by
  have := escape_gain s
  simp [quoted] at this ⊢; omega

theorem gain_and (a b : Bool) : gain (a && b) ≤ gain a + gain b := by
  cases a <;> cases b <;> simp [gain]

theorem valuesText_length (vs : List Bytes) :
    (valuesText false vs).length + vs.length + gain (Spec.thin vs) ≤ (vs.map fun v => v.length * 6 + 4).sum := by
  induction vs with
  | nil => simp [valuesText, gain, Spec.thin]
  | cons v vs ih =>
    have h1 := quoted_gain v
    have h2 := gain_and (v.all fun c => c.toNat < 0x20) (Spec.thin vs)
    have h3 : Spec.thin (v :: vs) = ((v.all fun c => c.toNat < 0x20) && Spec.thin vs) := by simp [Spec.thin]
    rw [h3]
    simp only [valuesText, List.length_append, List.map_cons, List.sum_cons, List.length_cons,
      Bool.false_eq_true, if_false, List.length_nil]
    omega

theorem tagText_length {t : List Bytes} (ht : t ≠ []) :
    (valuesText true t).length + 3 ≤ (t.map fun v => v.length * 6 + 4).sum + [t].countP Spec.thin := by
  cases t with
  | nil => simp at ht
  | cons v vs =>
    have h := valuesText_length (v :: vs)
    have e : (valuesText false (v :: vs)).length = (valuesText true (v :: vs)).length + 1 := by simp [valuesText]
    have c : [v :: vs].countP Spec.thin = if Spec.thin (v :: vs) then 1 else 0 := by simp [List.countP_cons]
    rw [c]
    simp only [List.length_cons] at h
    cases hx : Spec.thin (v :: vs) <;> simp [hx, gain] at h ⊢ <;> omega

theorem tagsText_length (ts : List (List Bytes)) (h : ∀ t ∈ ts, t ≠ []) :
    (tagsText false ts).length ≤
      (ts.map fun t => (t.map fun v => v.length * 6 + 4).sum).sum + ts.countP Spec.thin := by
  induction ts with
  | nil => simp [tagsText]
  | cons t ts ih =>
    have h1 := tagText_length (h t (by simp))
    have h2 := ih (fun x hx => h x (by simp [hx]))
    have h3 : (t :: ts).countP Spec.thin = [t].countP Spec.thin + ts.countP Spec.thin := by
      rw [← List.countP_append]; rfl
    rw [h3]
    simp only [tagsText, List.length_append, List.map_cons, List.sum_cons, List.length_cons,
      Bool.false_eq_true, if_false, List.length_nil]
    omega

theorem tagsText_first (ts : List (List Bytes)) : (tagsText true ts).length ≤ (tagsText false ts).length := by
  cases ts <;> simp [tagsText]

theorem hexEncode_length (b : Bytes) : (Hex.hexEncode b).length = 2 * b.length := by
  rw [Hex.hexEncode_eq, Hex.hexText_length]

/-- With at most 400 tags of control characters only, the computed buffer is large enough. -/
theorem fits_400 {e : Event} (h : WF e) (hn : Spec.thinTags e ≤ 400) : (idText e).length < jsonSize e := by
  have h1 := hexEncode_length e.pubkey
  have h2 := Num.decInt_length _ h.time.1 h.time.2
  have hk := h.kind
  have h3 := Num.decNat_length (n := e.kind) (k := 5) (by omega) (by omega)
  have h4 := tagsText_length e.tags (fun t ht => (h.tags t ht).1)
  have h5 := tagsText_first e.tags
  have hp := h.pubkey
  unfold Spec.thinTags at hn
  rw [← List.countP_eq_length_filter] at hn
  unfold idText jsonSize
  simp only [List.length_append, List.length_cons, List.length_nil]
  omega

/-! ## Both serialisers print the same tree -/

/-- The array with plain decimal numbers. -/
def tree0 (e : Event) : Json :=
  .arr [.num (c!"0"), .str (Hex.hexEncode e.pubkey), .num (Num.decInt e.createdAt),
    .num (Num.decNat e.kind), .arr (e.tags.map fun t => .arr (t.map .str)), .str e.text]

theorem printElems_str (d : Nat) (vs : List Bytes) :
    printElems false d (vs.map .str) = valuesText true vs := by
  induction vs with
  | nil => rfl
  | cons v vs ih =>
    cases vs with
    | nil => simp [printElems, print, valuesText]
    | cons w ws =>
      simp only [List.map_cons] at ih
      simp only [List.map_cons, printElems, print] at ih ⊢
      rw [ih]
      simp [valuesText]

theorem printElems_tags (d : Nat) (ts : List (List Bytes)) :
    printElems false d (ts.map fun t => .arr (t.map .str)) = tagsText true ts := by
  induction ts with
  | nil => rfl
  | cons t ts ih =>
    cases ts with
    | nil => simp [printElems, print, tagsText, printElems_str]
    | cons w ws =>
      simp only [List.map_cons] at ih
      simp only [List.map_cons, printElems, print, printElems_str] at ih ⊢
      rw [ih]
      simp [tagsText]

theorem escape_hex (b : Bytes) : escape (Hex.hexEncode b) = Hex.hexEncode b := by
  rw [Hex.hexEncode_eq]
  induction b with
  | nil => rfl
  | cons x b ih =>
    have ht : ∀ n < 256, escape (Hex.Spec.hexOf (UInt8.ofNat n)) = Hex.Spec.hexOf (UInt8.ofNat n) := by
      decide +kernel
    have h2 := ht x.toNat x.toNat_lt
    rw [UInt8.ofNat_toNat] at h2
    have e1 : Hex.Spec.hexText (x :: b) = Hex.Spec.hexOf x ++ Hex.Spec.hexText b := rfl
    have e2 : ∀ u v : Bytes, escape (u ++ v) = escape u ++ escape v := fun u v => List.flatMap_append
    rw [e1, e2, h2, ih]

theorem idText_eq (e : Event) : idText e = print false 0 (tree0 e) := by
  simp [idText, tree0, print, printElems, printElems_tags, quoted, escape_hex]

theorem numTok_small (td : Int → Int) (fr : Int → Bytes) {n : Int} (h : n.natAbs < 10 ^ 15) :
    numTok td fr n = Num.decInt n := by
  unfold numTok; rw [if_pos h]

theorem decInt_nat (n : Nat) : Num.decInt (n : Int) = Num.decNat n := by
  unfold Num.decInt
  rw [if_neg (by omega), Int.natAbs_natCast]

theorem idTree_eq (td : Int → Int) (fr : Int → Bytes) {e : Event} (hk : e.kind < 65536)
    (ht : e.createdAt.natAbs < 10 ^ 15) : idTree td fr e = tree0 e := by
  unfold idTree tree0
  rw [numTok_small td fr ht, numTok_small td fr (n := (e.kind : Int)) (by omega),
    numTok_small td fr (n := 0) (by decide), decInt_nat]
  rfl

/-! ## The tree is good and determines the event -/

theorem goodNum_decNat {n : Nat} (h : n < 10 ^ 20) : GoodNum (Num.decNat n) := by
  have hne := Num.decNat_ne n
  have hd := Num.decNat_digits n
  have hl := Num.decNat_length (k := 20) (by omega) h
  have : (Num.decNat n).head? ≠ some 0x2d := by
    intro h
    have := hd _ (List.mem_of_head? h)
    revert this; decide
  refine IntNum.good ?_
  unfold IntNum
  simp only [this, if_false]
  exact ⟨hne, hl, hd⟩

theorem goodNum_decInt {i : Int} (h : i.natAbs < 10 ^ 20) : GoodNum (Num.decInt i) := by
  unfold Num.decInt
  split
  · refine IntNum.good ?_
    unfold IntNum
    simp only [List.head?_cons, if_true, List.tail_cons]
    exact ⟨Num.decNat_ne _, Num.decNat_length (by omega) h, Num.decNat_digits _⟩
  · exact goodNum_decNat h

theorem hexText_cstr (b : Bytes) : CStr (Hex.hexEncode b) := by
  rw [Hex.hexEncode_eq]
  intro h
  rw [Hex.Spec.hexText, List.mem_flatMap] at h
  obtain ⟨x, -, hx⟩ := h
  have : ∀ n < 256, (0 : UInt8) ∉ Hex.Spec.hexOf (UInt8.ofNat n) := by decide +kernel
  have h2 := this x.toNat x.toNat_lt
  rw [UInt8.ofNat_toNat] at h2
  exact h2 hx

theorem goodL_str {vs : List Bytes} (h : ∀ v ∈ vs, CStr v) : GoodL (vs.map .str) := by
  induction vs with
  | nil => simp [GoodL]
  | cons v vs ih =>
    simp only [List.map_cons, GoodL, Good]
    exact ⟨h v (by simp), ih (fun x hx => h x (by simp [hx]))⟩

theorem goodL_tags {ts : List (List Bytes)} (h : ∀ t ∈ ts, ∀ v ∈ t, CStr v) :
    GoodL (ts.map fun t => .arr (t.map .str)) := by
  induction ts with
  | nil => simp [GoodL]
  | cons t ts ih =>
    simp only [List.map_cons, GoodL, Good]
    exact ⟨goodL_str (h t (by simp)), ih (fun x hx => h x (by simp [hx]))⟩

theorem heightL_str (vs : List Bytes) : heightL (vs.map .str) = 0 := by
  induction vs with
  | nil => simp [heightL]
  | cons v vs ih => simp [heightL, height, ih]

theorem heightL_tags (ts : List (List Bytes)) : heightL (ts.map fun t => .arr (t.map .str)) ≤ 1 := by
  induction ts with
  | nil => simp [heightL]
  | cons v vs ih =>
    simp only [List.map_cons, heightL, height, heightL_str]
    omega

theorem good_tree0 {e : Event} (h : WF e) : Good (tree0 e) ∧ height (tree0 e) ≤ nestingLimit := by
  have ht := h.time
  have hk := h.kind
  constructor
  · simp only [tree0, Good, GoodL, and_true]
    exact ⟨IntNum.good (by decide), hexText_cstr _, goodNum_decInt (by omega), goodNum_decNat (by omega),
      goodL_tags (fun t ht => (h.tags t ht).2), h.content⟩
  · have := heightL_tags e.tags
    simp only [tree0, height, heightL, nestingLimit]
    omega

theorem map_str_inj {a b : List Bytes} (h : a.map Json.str = b.map Json.str) : a = b :=
  (List.map_inj_right (fun x y hxy => by simpa using hxy)).1 h

theorem map_tags_inj {a b : List (List Bytes)}
    (h : a.map (fun t => Json.arr (t.map .str)) = b.map (fun t => Json.arr (t.map .str))) : a = b :=
  (List.map_inj_right (fun x y hxy => by
    simp only [Json.arr.injEq] at hxy
    exact map_str_inj hxy)).1 h

theorem hexEncode_inj {a b : Bytes} (h : Hex.hexEncode a = Hex.hexEncode b) : a = b := by
  rw [Hex.hexEncode_eq, Hex.hexEncode_eq] at h
  exact Hex.hexText_inj h

theorem tree0_inj {a b : Event} (h : tree0 a = tree0 b) : SameSigned a b := by
  unfold tree0 at h
  simp only [Json.arr.injEq, List.cons.injEq, Json.str.injEq, Json.num.injEq, true_and, and_true] at h
  exact ⟨hexEncode_inj h.1, Num.decInt_inj h.2.1, Num.decNat_inj h.2.2.1, map_tags_inj h.2.2.2.1, h.2.2.2.2⟩

theorem idText_inj {a b : Event} (ha : WF a) (hb : WF b) (h : idText a = idText b) : SameSigned a b := by
  rw [idText_eq, idText_eq] at h
  exact tree0_inj (print_inj (good_tree0 ha).1 (good_tree0 hb).1 (good_tree0 ha).2 (good_tree0 hb).2 h)

theorem sameSigned_text {a b : Event} (h : SameSigned a b) : idText a = idText b := by
  obtain ⟨h1, h2, h3, h4, h5⟩ := h
  unfold idText
  rw [h1, h2, h3, h4, h5]

/-! ## Too many tags for the buffer -/

theorem printf_trunc {w : Wr} {t : Bytes} (hs : w.Sync) (h : w.pos < w.size) :
    w.printf t = .ok { w with buf := (w.buf ++ t).take (w.size - 1), pos := w.pos + t.length } := by
  unfold Wr.printf
  rw [if_neg (by omega), if_neg (by omega)]
  simp only [Wr.Sync] at hs
  rw [List.take_of_length_le (by omega), List.take_append, List.take_of_length_le (l := w.buf) (by omega)]
  congr 3
  rw [hs]
  congr 1
  omega

/-- The part of the preimage before the content. -/
def idHead (e : Event) : Bytes :=
  c!"[0,\"" ++ Hex.hexEncode e.pubkey ++ c!"\"," ++ Num.decInt e.createdAt ++
      c!"," ++ Num.decNat e.kind ++ c!",[" ++ tagsText true e.tags

theorem idText_split (e : Event) : idText e = idHead e ++ (c!"],\"" ++ escape e.text ++ c!"\"]") := by
  simp [idText, idHead]

/-- If only the content does not fit, the preimage is silently truncated. -/
theorem serializePlain_trunc {e : Event} (h : (idHead e).length < jsonSize e) :
    serializePlain e = .ok ((idText e).take (jsonSize e - 1)) := by
  rw [idText_split]
  unfold idHead at h ⊢
  simp only [List.length_append] at h
  unfold serializePlain
  simp only
  have s0 : (Wr.mk (jsonSize e) [] 0).Sync := rfl
  rw [printf_fit s0 (by simp only [List.length_append]; omega), Res.bind_ok]
  have s1 := ext_sync s0 (c!"[0,\"" ++ Hex.hexEncode e.pubkey ++ c!"\"," ++ Num.decInt e.createdAt ++
      c!"," ++ Num.decNat e.kind ++ c!",[")
  rw [putTags_fit _ _ _ s1 (by simp only [ext_pos, ext_size, List.length_append]; omega), Res.bind_ok]
  have s2 := ext_sync s1 (tagsText true e.tags)
  rw [if_neg (by simp only [ext_pos, ext_size, List.length_append]; omega),
    printf_trunc s2 (by simp only [ext_pos, ext_size, List.length_append]; omega)]
  simp [Wr.ext]

theorem tagsText_empties (n : Nat) (b : Bool) : (tagsText b (List.replicate (n + 1) [[]])).length =
    5 * (n + 1) - (if b then 1 else 0) := by
  induction n generalizing b with
  | zero => cases b <;> rfl
  | succ n ih =>
    rw [List.replicate_succ]
    simp only [tagsText, List.length_append, ih false]
    cases b <;> simp [valuesText, quoted, escape] <;> omega

theorem sum_empties (n : Nat) : ((List.replicate n ([[]] : List Bytes)).map
    fun t => (t.map fun v => v.length * 6 + 4).sum).sum = 4 * n := by
  induction n with
  | zero => rfl
  | succ n ih =>
    rw [List.replicate_succ, List.map_cons, List.sum_cons, ih]
    simp
    omega

theorem putTags_append (a b : List (List Bytes)) (ha : a ≠ []) : ∀ (w : Wr) (first : Bool),
    putTags w first (a ++ b) = putTags w first a >>= fun w' => putTags w' false b := by
  induction a with
  | nil => simp at ha
  | cons t a ih =>
    intro w first
    simp only [List.cons_append, putTags, Res.bind_assoc]
    cases a with
    | nil => simp [putTags]
    | cons u a => simp only [ih (by simp)]

/-- Writing `n` further tags `[""]` takes five bytes each or leaves the buffer. -/
theorem putTags_empties (n : Nat) : ∀ w : Wr, w.pos ≤ w.size →
    putTags w false (List.replicate n [[]]) = .ub ∨
    ∃ w', putTags w false (List.replicate n [[]]) = .ok w' ∧ w'.pos = w.pos + 5 * n ∧ w'.size = w.size ∧
      w'.pos ≤ w.size := by
  induction n with
  | zero => intro w h; right; exact ⟨w, rfl, rfl, rfl, h⟩
  | succ n ih =>
    intro w h
    rw [List.replicate_succ]
    simp only [putTags, Bool.false_eq_true, if_false, putValues, if_true]
    unfold Wr.put
    split
    · rw [Res.bind_ok]
      simp only
      split
      · rw [Res.bind_ok, Res.bind_ok]
        rename_i h1 h2
        have hq : (quoted []).length = 2 := rfl
        rcases Nat.lt_or_ge (w.pos + 2) w.size with h3 | h3
        · simp only [Wr.printf, hq]
          rw [if_neg (by omega), if_neg (by omega), Res.bind_ok, Res.bind_ok]
          simp only
          split
          · rw [Res.bind_ok]
            rcases ih ⟨w.size, _, w.pos + 1 + 1 + 2 + 1⟩ (by simp only; omega) with h4 | ⟨w', h4, h5, h6, h7⟩
            · left; exact h4
            · right; exact ⟨w', h4, by simp only at h5; omega, h6, h7⟩
          · left; rfl
        · left
          simp only [Wr.printf, hq]
          rw [if_neg (by omega), if_pos (by omega), Res.bind_ok, Res.bind_ok]
          simp only
          rw [if_neg (by omega)]
          rfl
      · left; rfl
    · left; rfl

/-! ## Where the writing ends, if it does -/

/-- The call succeeds, having advanced by `n`, or leaves the buffer. -/
def Adv (w : Wr) (n : Nat) (r : Res Wr) : Prop := r = .ub ∨ ∃ w', r = .ok w' ∧ w'.pos = w.pos + n ∧ w'.size = w.size

theorem put_adv (w : Wr) (c : UInt8) : Adv w 1 (w.put c) := by
  unfold Wr.put
  split
  · exact .inr ⟨_, rfl, rfl, rfl⟩
  · exact .inl rfl

theorem printf_adv (w : Wr) (t : Bytes) : Adv w t.length (w.printf t) := by
  unfold Wr.printf
  split
  · exact .inl rfl
  · split
    · exact .inr ⟨_, rfl, rfl, rfl⟩
    · exact .inr ⟨_, rfl, rfl, rfl⟩

theorem adv_bind {w : Wr} {n m : Nat} {r : Res Wr} {f : Wr → Res Wr} (h : Adv w n r) (hf : ∀ w', Adv w' m (f w')) :
    Adv w (n + m) (r >>= f) := by
  rcases h with rfl | ⟨w', rfl, h1, h2⟩
  · exact .inl rfl
  · rcases hf w' with h | ⟨w'', h, h3, h4⟩
    · exact .inl (by rw [Res.bind_ok, h])
    · exact .inr ⟨w'', by rw [Res.bind_ok, h], by omega, by omega⟩

theorem comma_adv (w : Wr) (first : Bool) :
    Adv w (if first then ([] : Bytes) else [0x2c]).length (if first then .ok w else w.put 0x2c) := by
  cases first
  · exact put_adv w _
  · exact .inr ⟨w, rfl, rfl, rfl⟩

theorem putValues_adv : ∀ (vs : List Bytes) (first : Bool) (w : Wr), Adv w (valuesText first vs).length (putValues w first vs) := by
  intro vs
  induction vs with
  | nil => intro first w; exact .inr ⟨w, rfl, rfl, rfl⟩
  | cons v vs ih =>
    intro first w
    unfold putValues
    have h := adv_bind (comma_adv w first) fun w1 => adv_bind (printf_adv w1 (quoted v)) fun w2 => ih false w2
    simpa [valuesText, Nat.add_assoc] using h

theorem putTags_adv : ∀ (ts : List (List Bytes)) (first : Bool) (w : Wr), Adv w (tagsText first ts).length (putTags w first ts) := by
  intro ts
  induction ts with
  | nil => intro first w; exact .inr ⟨w, rfl, rfl, rfl⟩
  | cons t ts ih =>
    intro first w
    unfold putTags
    have h := adv_bind (comma_adv w first) fun w1 => adv_bind (put_adv w1 0x5b) fun w2 => adv_bind (putValues_adv t true w2) fun w3 =>
      adv_bind (put_adv w3 0x5d) fun w4 => ih false w4
    have e : (tagsText first (t :: ts)).length = (if first then ([] : Bytes) else [0x2c]).length +
        (1 + ((valuesText true t).length + (1 + (tagsText false ts).length))) := by
      simp [tagsText]; omega
    rw [e]
    exact h

/-- The buffer is left exactly if it ends before the content. -/
theorem serializePlain_ub (e : Event) : serializePlain e = .ub ↔ jsonSize e ≤ (idHead e).length := by
  constructor
  · intro h
    apply Classical.byContradiction
    intro hn
    rw [serializePlain_trunc (by omega)] at h
    cases h
  · intro h
    unfold serializePlain
    simp only
    rcases printf_adv (Wr.mk (jsonSize e) [] 0) (c!"[0,\"" ++ Hex.hexEncode e.pubkey ++ c!"\"," ++ Num.decInt e.createdAt ++
      c!"," ++ Num.decNat e.kind ++ c!",[") with h1 | ⟨w1, h1, p1, s1⟩
    · rw [h1]; rfl
    · rw [h1, Res.bind_ok]
      rcases putTags_adv e.tags true w1 with h2 | ⟨w2, h2, p2, s2⟩
      · rw [h2]; rfl
      · rw [h2, Res.bind_ok, if_pos]
        unfold idHead at h
        simp only [List.length_append] at h p1 p2 s1
        omega

end Nostr.Event
