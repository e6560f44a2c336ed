import Verif.Nip51.Spec
import Verif.Hex.Lemmas
import Verif.Json.Body

namespace Nostr.Nip51
open Nostr Spec

/-- The list holds exactly the items of the sequence, and its array has between 8 and 4096 slots. -/
def Rep (l : Lst) (s : List Item) : Prop :=
  l.count = s.length ∧ ∃ k, l.slots = s.map some ++ List.replicate k none ∧ 8 ≤ s.length + k ∧ s.length + k ≤ 4096

theorem rep_create (kind : Nat) : Rep (create kind) [] := ⟨rfl, 8, rfl, by simp, by simp⟩

theorem rep_items {l : Lst} {s : List Item} (h : Rep l s) : l.items = s := by
  obtain ⟨h1, k, h2, -⟩ := h
  unfold Lst.items
  rw [h1, h2, List.take_append_of_le_length (by simp), List.take_of_length_le (by simp), List.filterMap_map]
  show s.filterMap (fun x => some x) = s
  simp

theorem rep_unique {l : Lst} {s t : List Item} (h : Rep l s) (h' : Rep l t) : s = t := by
  rw [← rep_items h, ← rep_items h']

theorem ensure_spec {l : Lst} {s : List Item} (mem : Bool) (h : Rep l s) :
    (s.length < 4096 ∧ ∃ l1, ensure mem l = .ok l1 ∧ Rep l1 s ∧ l1.count < l1.slots.length ∧
      l1.kind = l.kind ∧ l1.d = l.d ∧ l1.title = l.title ∧ l1.descr = l.descr ∧ l1.image = l.image) ∨
    ((s.length = 4096 ∨ mem = false) ∧ ensure mem l = .err .memory) := by
  have hR := h
  obtain ⟨h1, k, h2, h3, h4⟩ := h
  have hl : l.slots.length = s.length + k := by rw [h2]; simp
  unfold ensure
  by_cases hc : l.count ≥ l.slots.length
  · rw [if_pos hc]
    have hk : k = 0 := by omega
    by_cases hm : min (l.slots.length * 2) 4096 ≤ l.count
    · rw [if_pos hm]; right; exact ⟨.inl (by omega), rfl⟩
    · rw [if_neg hm]
      by_cases hmem : mem = false
      · rw [if_pos hmem]; right; exact ⟨.inr hmem, rfl⟩
      · rw [if_neg hmem]
        left
        refine ⟨by omega, _, rfl, ⟨h1, min (l.slots.length * 2) 4096 - l.slots.length, ?_, ?_, ?_⟩, ?_, rfl, rfl, rfl, rfl, rfl⟩
        · simp only; rw [h2, hk]; simp
        · omega
        · omega
        · simp only [List.length_append, List.length_replicate]; omega
  · rw [if_neg hc]
    left
    exact ⟨by omega, l, rfl, hR, by omega, rfl, rfl, rfl, rfl, rfl⟩

theorem set_at {α : Type} (a : List α) (x y : α) (r : List α) : (a ++ x :: r).set a.length y = a ++ y :: r := by
  induction a with
  | nil => rfl
  | cons b a ih => simp [ih]

/-- The fields of a list besides its items. -/
def Same (l l' : Lst) : Prop :=
  l'.kind = l.kind ∧ l'.d = l.d ∧ l'.title = l.title ∧ l'.descr = l.descr ∧ l'.image = l.image

theorem addItem_spec {l : Lst} {s : List Item} (mem dup : Bool) (it : Item) (h : Rep l s) :
    (s.length < 4096 ∧ ∃ l1, addItem mem dup l it = .ok (l1, none) ∧ Rep l1 (s ++ [it]) ∧ Same l l1) ∨
    ((s.length = 4096 ∨ mem = false ∨ dup = false) ∧ ∃ l1, addItem mem dup l it = .ok (l1, some .memory) ∧ Rep l1 s) := by
  unfold addItem
  rcases ensure_spec mem h with ⟨hs, l1, e, hr, hc, hsame⟩ | ⟨hs, e⟩
  · rw [e]
    simp only
    rw [if_neg (by omega)]
    obtain ⟨h1, k, h2, h3, h4⟩ := hr
    have hk : 0 < k := by rw [h2] at hc; simp at hc; omega
    obtain ⟨k', rfl⟩ : ∃ k', k = k' + 1 := ⟨k - 1, by omega⟩
    have hset : ∀ o, l1.slots.set l1.count o = s.map some ++ o :: List.replicate k' none := by
      intro o
      rw [h2, h1, List.replicate_succ]
      have := set_at (s.map some) none o (List.replicate k' none)
      rwa [List.length_map] at this
    by_cases hd : dup = false
    · rw [if_pos hd]
      right
      refine ⟨.inr (.inr hd), _, rfl, h1, k' + 1, ?_, h3, h4⟩
      simp only [hset]; rfl
    · rw [if_neg hd]
      left
      refine ⟨hs, _, rfl, ⟨by simp [h1], k', ?_, by simp only [List.length_append, List.length_singleton]; omega, by simp only [List.length_append, List.length_singleton]; omega⟩, hsame⟩
      simp only [hset]; simp
  · rw [e]
    right
    refine ⟨?_, _, rfl, h⟩
    rcases hs with h | h
    · exact .inl h
    · exact .inr (.inl h)

theorem addItem_ok {l : Lst} {s : List Item} (it : Item) (h : Rep l s) (hs : s.length < 4096) :
    ∃ l1, addItem true true l it = .ok (l1, none) ∧ Rep l1 (s ++ [it]) ∧ Same l l1 := by
  rcases addItem_spec true true it h with ⟨-, l1, h1, h2, h3⟩ | ⟨h1, -⟩
  · exact ⟨l1, h1, h2, h3⟩
  · rcases h1 with h1 | h1 | h1
    · omega
    · simp at h1
    · simp at h1

theorem remove_spec {l : Lst} {s : List Item} (i : Nat) (h : Rep l s) :
    (i < s.length ∧ ∃ l1, remove l i = .ok (l1, none) ∧ Rep l1 (s.take i ++ s.drop (i + 1))) ∨
    (s.length ≤ i ∧ remove l i = .ok (l, some .invalidParam)) := by
  obtain ⟨h1, k, h2, h3, h4⟩ := h
  have hl : l.slots.length = s.length + k := by rw [h2]; simp
  unfold remove
  by_cases hi : i ≥ l.count
  · rw [if_pos hi]; right; exact ⟨by omega, rfl⟩
  · rw [if_neg hi, if_neg (by omega)]
    left
    refine ⟨by omega, _, rfl, ?_, k + 1, ?_, ?_, ?_⟩
    · simp; omega
    · simp only
      have e1 : l.slots.take i = (s.take i).map some := by
        rw [h2, List.take_append_of_le_length (by simp; omega), List.map_take]
      have e2 : (l.slots.drop (i + 1)).take (l.count - i - 1) = (s.drop (i + 1)).map some := by
        rw [h2, List.drop_append_of_le_length (by simp; omega), List.take_append_of_le_length (by simp; omega),
          ← List.map_drop, List.take_of_length_le (by simp; omega)]
      have e3 : l.slots.drop (l.count - 1) = (s.drop (s.length - 1)).map some ++ List.replicate k none := by
        rw [h2, h1, List.drop_append_of_le_length (by simp), ← List.map_drop]
      obtain ⟨x, hx⟩ : ∃ x, s.drop (s.length - 1) = [x] := by
        have : (s.drop (s.length - 1)).length = 1 := by rw [List.length_drop]; omega
        match hm : s.drop (s.length - 1), this with
        | [x], _ => exact ⟨x, rfl⟩
      rw [e1, e2, e3, hx]
      have := set_at ((s.take i).map some ++ (s.drop (i + 1)).map some) (some x) none (List.replicate k none)
      have hlen : ((s.take i).map some ++ (s.drop (i + 1)).map some).length = l.count - 1 := by simp; omega
      rw [hlen] at this
      simp only [List.map_cons, List.map_nil, List.singleton_append]
      rw [this]
      simp [List.replicate_succ]
    · simp; omega
    · simp; omega

theorem get_spec {l : Lst} {s : List Item} (i : Nat) (h : Rep l s) : get l i = .ok s[i]? := by
  obtain ⟨h1, k, h2, h3, h4⟩ := h
  unfold get
  by_cases hi : i ≥ l.count
  · rw [if_pos hi, List.getElem?_eq_none (by omega)]
  · have hi' : i < s.length := by omega
    rw [if_neg hi, h2, List.getElem?_append_left (by simpa using hi'), List.getElem?_map, List.getElem?_eq_getElem hi']
    rfl

theorem nibble_isSome (c : UInt8) : (Hex.nibble c).isSome = true ↔ Hex.Spec.IsHexDigit c := by
  have h : ∀ n < 256, (Hex.nibble (UInt8.ofNat n)).isSome = true ↔ Hex.Spec.IsHexDigit (UInt8.ofNat n) := by
    unfold Hex.Spec.IsHexDigit; decide +kernel
  have := h c.toNat c.toNat_lt
  rwa [UInt8.ofNat_toNat] at this

theorem hex64_iff (s : Bytes) : hex64 s = true ↔ Hex64 s := by
  unfold hex64 Hex64
  simp only [Bool.and_eq_true, decide_eq_true_eq, List.all_eq_true]
  constructor
  · rintro ⟨h1, h2⟩; exact ⟨h1, fun c hc => (nibble_isSome c).1 (h2 c hc)⟩
  · rintro ⟨h1, h2⟩; exact ⟨h1, fun c hc => (nibble_isSome c).2 (h2 c hc)⟩

theorem item_iff (a : Add) (priv : Bool) : (Valid a ∧ item a priv = some (made a priv)) ∨ (¬ Valid a ∧ item a priv = none) := by
  cases a with
  | pubkey k h p =>
    simp only [Valid, item, made]
    by_cases hk : hex64 k = true
    · left; exact ⟨(hex64_iff k).1 hk, by rw [if_pos hk]⟩
    · right; exact ⟨fun h => hk ((hex64_iff k).2 h), by rw [if_neg hk]⟩
  | event k h =>
    simp only [Valid, item, made]
    by_cases hk : hex64 k = true
    · left; exact ⟨(hex64_iff k).1 hk, by rw [if_pos hk]⟩
    · right; exact ⟨fun h => hk ((hex64_iff k).2 h), by rw [if_neg hk]⟩
  | hashtag t => simp only [Valid, item, made]; by_cases h : t = [] <;> simp [h]
  | word t => simp only [Valid, item, made]; by_cases h : t = [] <;> simp [h]
  | relay t => simp only [Valid, item, made]; by_cases h : t = [] <;> simp [h]
  | reference t u => simp only [Valid, item, made]; by_cases h : t = [] <;> simp [h]
  | group t u n => simp only [Valid, item, made]; by_cases h : t = [] <;> by_cases h' : u = [] <;> simp [h, h']
  | emoji t u => simp only [Valid, item, made]; by_cases h : t = [] <;> by_cases h' : u = [] <;> simp [h, h']

/-! ## Escaping and the buffer -/

/-- The escaped text. -/
def esc (s : Bytes) : Bytes := s.flatMap escChar51

theorem esc_len (s : Bytes) : (esc s).length = escLen s := by
  induction s with
  | nil => rfl
  | cons c s ih =>
    have : (escChar51 c).length = escLen1 c := by
      have ht : ∀ n < 256, (escChar51 (UInt8.ofNat n)).length = escLen1 (UInt8.ofNat n) := by decide +kernel
      have := ht c.toNat c.toNat_lt
      rwa [UInt8.ofNat_toNat] at this
    simp only [esc, List.flatMap_cons, List.length_append, escLen, this]
    have : (List.flatMap escChar51 s).length = escLen s := ih
    omega

theorem puts_ok : ∀ (t : Bytes) (b : Buf), b.text.length + t.length ≤ b.size → b.puts t = .ok ⟨b.size, b.text ++ t⟩ := by
  intro t
  induction t with
  | nil => intro b _; obtain ⟨n, x⟩ := b; simp [Buf.puts]
  | cons c t ih =>
    intro b h
    obtain ⟨n, x⟩ := b
    simp only [List.length_cons] at h
    simp only [Buf.puts, Buf.put]
    rw [if_pos (by omega)]
    simp only [Res.bind_ok]
    rw [ih _ (by simp only [List.length_append, List.length_singleton]; omega)]
    simp

theorem put_ok {b : Buf} {c : UInt8} (h : b.text.length < b.size) : b.put c = .ok ⟨b.size, b.text ++ [c]⟩ := by
  unfold Buf.put; rw [if_pos h]

theorem escs_ok : ∀ (t : Bytes) (b : Buf), b.text.length + escLen t ≤ b.size → b.escs t = .ok ⟨b.size, b.text ++ esc t⟩ := by
  intro t
  induction t with
  | nil => intro b _; obtain ⟨n, x⟩ := b; simp [Buf.escs, esc]
  | cons c t ih =>
    intro b h
    obtain ⟨n, x⟩ := b
    have hl : escLen (c :: t) = (escChar51 c).length + escLen t := by
      rw [← esc_len, ← esc_len]; simp [esc]
    simp only [hl] at h
    simp only [Buf.escs]
    rw [puts_ok _ _ (by simp only; omega)]
    simp only [Res.bind_ok]
    rw [ih _ (by simp only [List.length_append]; omega)]
    simp [esc]

theorem escape_ok (t : Bytes) (b : Buf) (h : b.text.length + escLen t < b.size) : b.escape t = .ok ⟨b.size, b.text ++ esc t⟩ := by
  unfold Buf.escape
  rw [escs_ok t b (by omega)]
  simp only [Res.bind_ok, Buf.zero, List.length_append, esc_len]
  rw [if_pos h]

/-- The text of a hint. -/
def hintText : Option Bytes → Bytes
  | none => []
  | some h => 0x2c :: 0x22 :: (esc h ++ [0x22])

/-- The text of a petname. -/
def petText (hint : Option Bytes) : Option Bytes → Bytes
  | none => []
  | some p => (if hint = none then [0x2c, 0x22, 0x22] else []) ++ 0x2c :: 0x22 :: (esc p ++ [0x22])

/-- The text of an item. -/
def itemText (it : Item) : Bytes :=
  [0x5b, 0x22] ++ esc it.type ++ [0x22, 0x2c, 0x22] ++ esc it.value ++ [0x22] ++ hintText it.hint ++ petText it.hint it.pet ++ [0x5d]

theorem itemText_len (it : Item) : (itemText it).length + 8 ≤ itemSize it := by
  unfold itemText itemSize
  simp only [List.length_append, esc_len]
  have h1 : (hintText it.hint).length = (match it.hint with | none => 0 | some h => escLen h + 3) := by
    cases it.hint <;> simp [hintText, esc_len]
  have h2 : (petText it.hint it.pet).length = (match it.pet with | none => 0 | some p => escLen p + 3 + (if it.hint = none then 3 else 0)) := by
    cases it.pet with
    | none => rfl
    | some p => by_cases h : it.hint = none <;> simp [petText, esc_len, h] <;> try omega
  rw [h1, h2]
  cases it.hint <;> cases it.pet <;> simp <;> omega

theorem putHint_ok (o : Option Bytes) (m : Nat) (y : Bytes) (hm : y.length + (hintText o).length + 1 ≤ m) :
    putHint ⟨m, y⟩ o = .ok ⟨m, y ++ hintText o⟩ := by
  cases o with
  | none => simp [putHint, hintText]
  | some t =>
    simp only [hintText, List.length_cons, List.length_append, esc_len, List.length_nil] at hm
    simp only [putHint]
    rw [puts_ok _ _ (by simp only [List.length_cons, List.length_nil]; omega)]
    simp only [Res.bind_ok]
    rw [escape_ok _ _ (by simp only [List.length_append, List.length_cons, List.length_nil]; omega)]
    simp only [Res.bind_ok]
    rw [put_ok (by simp only [List.length_append, List.length_cons, List.length_nil, esc_len]; omega)]
    simp [hintText]

theorem putPet_ok (hint o : Option Bytes) (m : Nat) (y : Bytes) (hm : y.length + (petText hint o).length + 1 ≤ m) :
    putPet ⟨m, y⟩ hint o = .ok ⟨m, y ++ petText hint o⟩ := by
  cases o with
  | none => simp [putPet, petText]
  | some t =>
    simp only [petText, List.length_cons, List.length_append, esc_len, List.length_nil] at hm
    simp only [putPet]
    rw [puts_ok _ _ (by simp only; omega)]
    simp only [Res.bind_ok]
    rw [puts_ok _ _ (by simp only [List.length_append, List.length_cons, List.length_nil]; omega)]
    simp only [Res.bind_ok]
    rw [escape_ok _ _ (by simp only [List.length_append, List.length_cons, List.length_nil]; omega)]
    simp only [Res.bind_ok]
    rw [put_ok (by simp only [List.length_append, List.length_cons, List.length_nil, esc_len]; omega)]
    simp [petText]

theorem putItem_ok (it : Item) (first : Bool) (b : Buf) (h : b.text.length + itemSize it ≤ b.size) :
    putItem b first it = .ok ⟨b.size, b.text ++ ((if first then [] else [0x2c]) ++ itemText it)⟩ := by
  have hl := itemText_len it
  have hlen : (itemText it).length = 2 + escLen it.type + 3 + escLen it.value + 1 + (hintText it.hint).length + (petText it.hint it.pet).length + 1 := by
    unfold itemText; simp only [List.length_append, esc_len, List.length_cons, List.length_nil]
  have hf : (if first then [] else [0x2c] : Bytes).length ≤ 1 := by cases first <;> simp
  obtain ⟨n, x⟩ := b
  simp only at h
  unfold putItem
  rw [puts_ok _ _ (by simp only; omega)]
  simp only [Res.bind_ok]
  rw [puts_ok _ _ (by simp only [List.length_append, List.length_cons, List.length_nil]; omega)]
  simp only [Res.bind_ok]
  rw [escape_ok _ _ (by simp only [List.length_append, List.length_cons, List.length_nil]; omega)]
  simp only [Res.bind_ok]
  rw [puts_ok _ _ (by simp only [List.length_append, List.length_cons, List.length_nil, esc_len]; omega)]
  simp only [Res.bind_ok]
  rw [escape_ok _ _ (by simp only [List.length_append, List.length_cons, List.length_nil, esc_len]; omega)]
  simp only [Res.bind_ok]
  rw [put_ok (by simp only [List.length_append, List.length_cons, List.length_nil, esc_len]; omega)]
  simp only [Res.bind_ok]
  rw [putHint_ok _ _ _ (by simp only [List.length_append, List.length_cons, List.length_nil, esc_len]; omega)]
  simp only [Res.bind_ok]
  rw [putPet_ok _ _ _ _ (by simp only [List.length_append, List.length_cons, List.length_nil, esc_len]; omega)]
  simp only [Res.bind_ok]
  rw [put_ok (by simp only [List.length_append, List.length_cons, List.length_nil, esc_len]; omega)]
  simp [itemText]

/-- The private items. -/
def privs (l : List Item) : List Item := l.filter (·.priv)

/-- The items' texts, each but the first behind a comma. -/
def listText (first : Bool) : List Item → Bytes
  | [] => []
  | it :: l => (if first then [] else [0x2c]) ++ itemText it ++ listText false l

theorem bufSize_ge : ∀ (l : List Item) (first : Bool), (listText first (privs l)).length + 7 * (privs l).length + 2 ≤ bufSize l := by
  intro l
  induction l with
  | nil => intro first; simp [privs, listText, bufSize]
  | cons it l ih =>
    intro first
    by_cases hp : it.priv = true
    · have e3 : privs (it :: l) = it :: privs l := by simp [privs, hp]
      have hl := itemText_len it
      have hf : (if first then [] else [0x2c] : Bytes).length ≤ 1 := by cases first <;> simp
      have := ih false
      rw [e3]
      simp only [bufSize, hp, if_true, listText, List.length_append, List.length_cons]
      omega
    · have e3 : privs (it :: l) = privs l := by simp [privs, hp]
      have := ih first
      rw [e3]
      simp only [bufSize, hp, Bool.false_eq_true, if_false]
      omega

theorem putItems_ok : ∀ (l : List Item) (first : Bool) (b : Buf), b.text.length + bufSize l ≤ b.size + 1 →
    putItems b first l = .ok ⟨b.size, b.text ++ listText first (privs l)⟩ := by
  intro l
  induction l with
  | nil => intro first b h; obtain ⟨n, x⟩ := b; simp [putItems, privs, listText]
  | cons it l ih =>
    intro first b h
    unfold putItems
    by_cases hp : it.priv = true
    · simp only [bufSize, hp, if_true] at h
      have h2 := bufSize_ge l true
      rw [if_pos hp, putItem_ok it first b (by omega)]
      simp only [Res.bind_ok]
      have hl := itemText_len it
      have hf : (if first then [] else [0x2c] : Bytes).length ≤ 1 := by cases first <;> simp
      rw [ih false _ (by simp only [List.length_append]; omega)]
      have e3 : privs (it :: l) = it :: privs l := by simp [privs, hp]
      rw [e3]
      simp only [listText, List.append_assoc]
    · simp only [bufSize, hp, Bool.false_eq_true, if_false] at h
      rw [if_neg hp]
      have e3 : privs (it :: l) = privs l := by simp [privs, hp]
      rw [e3]
      exact ih first b (by omega)

theorem privateText_eq (l : List Item) : privateText l =
    .ok (if privs l = [] then [] else 0x5b :: (listText true (privs l) ++ [0x5d])) := by
  unfold privateText
  by_cases h : l.any (·.priv) = false
  · rw [if_pos h, if_pos]
    simpa [privs] using h
  · have hne : privs l ≠ [] := by
      intro h0; apply h
      simp only [List.any_eq_false]
      intro x hx hp
      have : x ∈ privs l := List.mem_filter.2 ⟨hx, hp⟩
      rw [h0] at this; simp at this
    have hb := bufSize_ge l true
    have hpl : 0 < (privs l).length := List.length_pos_iff.2 hne
    rw [if_neg h, if_neg hne, put_ok (by simp only [List.length_nil]; omega)]
    simp only [Res.bind_ok]
    rw [putItems_ok l true ⟨bufSize l, [] ++ [0x5b]⟩ (by simp only [List.nil_append, List.length_singleton]; omega)]
    simp only [Res.bind_ok]
    rw [put_ok (by simp only [List.length_append, List.length_singleton, List.length_nil]; omega)]
    simp only [Res.bind_ok, Buf.zero]
    rw [if_pos (by simp only [List.length_append, List.length_singleton, List.length_nil]; omega)]
    simp

/-! ## Reading -/

theorem esc_table : ∀ n < 256, n ≠ 0 →
    (escChar51 (UInt8.ofNat n) = [UInt8.ofNat n] ∧ UInt8.ofNat n ≠ 0x22 ∧ UInt8.ofNat n ≠ 0x5c) ∨
    (∃ e ∈ [0x22, 0x5c, 0x6e, 0x72, 0x74], escChar51 (UInt8.ofNat n) = [0x5c, e] ∧ e ≠ 0x75 ∧ simpleEsc e = UInt8.ofNat n) ∨
    (escChar51 (UInt8.ofNat n) = [0x5c, 0x75, 0x30, 0x30, Hex.digit (n / 16), Hex.digit (n % 16)] ∧ n < 0x20) := by
  decide +kernel

theorem uEscape_low : ∀ n < 32, ∀ r, uEscape (0x30 :: 0x30 :: Hex.digit (n / 16) :: Hex.digit (n % 16) :: r) = ([UInt8.ofNat n], r) := by
  intro n hn r
  have h : ∀ m < 32, Hex.nibble 0x30 = some 0 ∧ Hex.nibble (Hex.digit (m / 16)) = some (m / 16) ∧ Hex.nibble (Hex.digit (m % 16)) = some (m % 16) := by
    decide +kernel
  obtain ⟨h1, h2, h3⟩ := h n hn
  unfold uEscape hex4
  simp only [h1, h2, h3]
  have e : ((0 * 16 + 0) * 16 + n / 16) * 16 + n % 16 = n := by omega
  rw [e, if_neg (by omega), if_neg (by omega)]
  unfold utf8
  rw [if_pos (by omega)]

theorem field_esc (max : Nat) (rest : Bytes) : ∀ (s acc : Bytes) (f : Nat), CStr s → (esc s).length < f →
    field max f acc (esc s ++ 0x22 :: rest) = if acc.length + s.length ≤ max ∨ s = [] then some (acc ++ s, 0x22 :: rest) else none := by
  intro s
  induction s with
  | nil =>
    intro acc f _ hf
    obtain ⟨f, rfl⟩ : ∃ g, f = g + 1 := ⟨f - 1, by simp [esc] at hf; omega⟩
    simp [esc, field]
  | cons c s ih =>
    intro acc f hs hf
    obtain ⟨f, rfl⟩ : ∃ g, f = g + 1 := ⟨f - 1, by omega⟩
    have hc : c ≠ 0 := fun h0 => hs (by simp [h0])
    have hs' : CStr s := fun h0 => hs (by simp [h0])
    have hn : c.toNat ≠ 0 := fun h => hc (UInt8.toNat_inj.1 h)
    have ht := esc_table c.toNat c.toNat_lt hn
    rw [UInt8.ofNat_toNat] at ht
    have he : esc (c :: s) = escChar51 c ++ esc s := rfl
    rw [he, List.length_append] at hf
    rw [he]
    have fin : ∀ g, (esc s).length < g → acc.length < max → field max g (acc ++ [c]) (esc s ++ 0x22 :: rest) =
        if acc.length + (c :: s).length ≤ max ∨ c :: s = [] then some (acc ++ c :: s, 0x22 :: rest) else none := by
      intro g hg hm
      rw [ih (acc ++ [c]) g hs' hg]
      simp only [List.length_append, List.length_cons, List.length_nil]
      by_cases hl : acc.length + (s.length + 1) ≤ max
      · rw [if_pos (.inl (by omega)), if_pos (.inl hl)]; simp
      · rw [if_neg (by rintro (h | h); omega; subst h; simp at hl; omega), if_neg (by rintro (h | h); omega; simp at h)]
    by_cases hm : acc.length ≥ max
    · have hr : ¬ (acc.length + (c :: s).length ≤ max ∨ c :: s = []) := by
        rintro (h | h)
        · simp only [List.length_cons] at h; omega
        · simp at h
      rw [if_neg hr]
      rcases ht with ⟨h1, h2, h3⟩ | ⟨e, he, h1, h2, h3⟩ | ⟨h1, h2⟩
      · rw [h1]; simp only [List.singleton_append, List.cons_append, field]; rw [if_neg h2, if_pos hm]
      · rw [h1]; simp only [List.cons_append, field]; rw [if_neg (by decide), if_pos hm]
      · rw [h1]; simp only [List.cons_append, field]; rw [if_neg (by decide), if_pos hm]
    · rcases ht with ⟨h1, h2, h3⟩ | ⟨e, he, h1, h2, h3⟩ | ⟨h1, h2⟩
      · rw [h1] at hf ⊢
        simp only [List.singleton_append, List.cons_append, List.nil_append, field]
        rw [if_neg h2, if_neg hm, if_neg h3]
        exact fin f (by simp at hf; omega) (by omega)
      · rw [h1] at hf ⊢
        simp only [List.cons_append, List.nil_append, field]
        rw [if_neg (by decide), if_neg hm, if_pos trivial, if_neg h2, h3]
        exact fin f (by simp at hf; omega) (by omega)
      · rw [h1] at hf ⊢
        simp only [List.cons_append, List.nil_append, field]
        rw [if_neg (by decide), if_neg hm, if_pos trivial, if_pos trivial, uEscape_low _ h2, UInt8.ofNat_toNat]
        simp only [List.length_singleton]
        rw [if_pos (by omega)]
        exact fin f (by simp at hf; omega) (by omega)

theorem skipWs_quote (r : Bytes) : skipWs (0x22 :: r) = 0x22 :: r := by unfold skipWs; rw [if_neg (by decide)]
theorem skipWs_open (r : Bytes) : skipWs (0x5b :: r) = 0x5b :: r := by unfold skipWs; rw [if_neg (by decide)]
theorem skipWs_close (r : Bytes) : skipWs (0x5d :: r) = 0x5d :: r := by unfold skipWs; rw [if_neg (by decide)]
theorem skipWs_comma (r : Bytes) : skipWs (0x2c :: r) = skipWs r := by rw [skipWs]; rw [if_pos (by decide)]

/-- Reading one field, with or without a comma in front. -/
theorem fields_step (first : Bool) {k : Nat} (hk : k < 4) {s : Bytes} (hs : CStr s) (acc : List Bytes) (rest : Bytes) (f : Nat) :
    fields (f + 1) k acc ((if first then [] else [0x2c]) ++ 0x22 :: (esc s ++ 0x22 :: rest)) =
      if s.length ≤ room k then fields f (k + 1) (acc ++ [s]) rest else none := by
  have hw : skipWs ((if first then [] else [0x2c]) ++ 0x22 :: (esc s ++ 0x22 :: rest)) = 0x22 :: (esc s ++ 0x22 :: rest) := by
    cases first
    · simp only [Bool.false_eq_true, if_false, List.singleton_append, skipWs_comma, skipWs_quote]
    · simp only [if_true, List.nil_append, skipWs_quote]
  have hg : ¬ ((if first then [] else [0x2c]) ++ 0x22 :: (esc s ++ 0x22 :: rest) = ([] : Bytes) ∨
      ((if first then [] else [0x2c]) ++ 0x22 :: (esc s ++ 0x22 :: rest)).head? = some 0x5d) := by
    cases first <;> simp
  rw [fields, if_neg hg, hw]
  simp only
  rw [if_neg (by decide), if_neg (by decide), if_neg (by omega),
    field_esc (room k) rest s [] _ hs (by simp only [List.length_append, List.length_cons]; omega)]
  simp only [List.length_nil, Nat.zero_add, List.nil_append]
  by_cases h : s.length ≤ room k
  · rw [if_pos (.inl h), if_pos h]
    simp
  · rw [if_neg (by rintro (h' | h'); exact h h'; subst h'; simp at h), if_neg h]

theorem fields_end (f k : Nat) (acc : List Bytes) (rest : Bytes) : fields (f + 1) k acc (0x5d :: rest) = some (acc, 0x5d :: rest) := by
  rw [fields, if_pos (.inr rfl)]

/-- The fields of an item. -/
def fieldsOf (it : Item) : List Bytes :=
  [it.type, it.value] ++ (match it.pet with
    | none => it.hint.toList
    | some p => [it.hint.getD [], p])

/-- The text of an item behind its bracket. -/
theorem itemText_eq (it : Item) (rest : Bytes) : itemText it ++ rest = 0x5b :: ((if true then [] else [0x2c]) ++ 0x22 :: (esc it.type ++ 0x22 ::
    ((if false then [] else [0x2c]) ++ 0x22 :: (esc it.value ++ 0x22 :: (hintText it.hint ++ petText it.hint it.pet ++ 0x5d :: rest))))) := by
  simp [itemText]

theorem fields_item {it : Item} (ht : Texts it) (rest : Bytes) {f : Nat} (hf : 5 ≤ f) :
    (Fits it → fields f 0 [] ((if true then [] else [0x2c]) ++ 0x22 :: (esc it.type ++ 0x22 ::
      ((if false then [] else [0x2c]) ++ 0x22 :: (esc it.value ++ 0x22 :: (hintText it.hint ++ petText it.hint it.pet ++ 0x5d :: rest))))) =
      some (fieldsOf it, 0x5d :: rest)) ∧
    (¬ Fits it → fields f 0 [] ((if true then [] else [0x2c]) ++ 0x22 :: (esc it.type ++ 0x22 ::
      ((if false then [] else [0x2c]) ++ 0x22 :: (esc it.value ++ 0x22 :: (hintText it.hint ++ petText it.hint it.pet ++ 0x5d :: rest))))) =
      none) := by
  obtain ⟨f, rfl⟩ : ∃ g, f = g + 5 := ⟨f - 5, by omega⟩
  obtain ⟨h1, h2, hh, hp⟩ := ht
  have r0 : room 0 = 63 := rfl
  have r1 : room 1 = 1023 := rfl
  have r2 : room 2 = 511 := rfl
  have r3 : room 3 = 255 := rfl
  rw [fields_step true (by decide) h1, r0]
  by_cases c1 : it.type.length ≤ 63
  case neg => exact ⟨fun h => absurd h.type c1, fun _ => by rw [if_neg c1]⟩
  rw [if_pos c1, fields_step false (by decide) h2, r1]
  by_cases c2 : it.value.length ≤ 1023
  case neg => exact ⟨fun h => absurd h.value c2, fun _ => by rw [if_neg c2]⟩
  rw [if_pos c2]
  obtain ⟨ty, va, hi, pe, pr⟩ := it
  simp only at h1 h2 hh hp ⊢
  cases hi with
  | none =>
    cases pe with
    | none =>
      simp only [hintText, petText, List.nil_append]
      rw [fields_end]
      exact ⟨fun _ => rfl, fun h => absurd ⟨c1, c2, fun t ht => (by cases ht), fun t ht => (by cases ht)⟩ h⟩
    | some p =>
      have e : hintText none ++ petText none (some p) ++ 0x5d :: rest = (if false then [] else [0x2c]) ++ 0x22 :: (esc [] ++ 0x22 ::
          ((if false then [] else [0x2c]) ++ 0x22 :: (esc p ++ 0x22 :: (0x5d :: rest)))) := by simp [hintText, petText, esc]
      rw [e, fields_step false (by decide) (by simp [CStr]), if_pos (by simp), fields_step false (by decide) (hp p rfl), r3]
      by_cases c4 : p.length ≤ 255
      · rw [if_pos c4, fields_end]
        exact ⟨fun _ => rfl, fun h => absurd ⟨c1, c2, fun t ht => (by cases ht), fun t ht => (by cases ht; exact c4)⟩ h⟩
      · rw [if_neg c4]; exact ⟨fun h => absurd (h.pet p rfl) c4, fun _ => rfl⟩
  | some t =>
    cases pe with
    | none =>
      have e : hintText (some t) ++ petText (some t) none ++ 0x5d :: rest = (if false then [] else [0x2c]) ++ 0x22 :: (esc t ++ 0x22 :: (0x5d :: rest)) := by
        simp [hintText, petText]
      rw [e, fields_step false (by decide) (hh t rfl), r2]
      by_cases c3 : t.length ≤ 511
      · rw [if_pos c3, fields_end]
        exact ⟨fun _ => rfl, fun h => absurd ⟨c1, c2, fun t ht => (by cases ht; exact c3), fun t ht => (by cases ht)⟩ h⟩
      · rw [if_neg c3]; exact ⟨fun h => absurd (h.hint t rfl) c3, fun _ => rfl⟩
    | some p =>
      have e : hintText (some t) ++ petText (some t) (some p) ++ 0x5d :: rest = (if false then [] else [0x2c]) ++ 0x22 :: (esc t ++ 0x22 ::
          ((if false then [] else [0x2c]) ++ 0x22 :: (esc p ++ 0x22 :: (0x5d :: rest)))) := by simp [hintText, petText]
      rw [e, fields_step false (by decide) (hh t rfl), r2]
      by_cases c3 : t.length ≤ 511
      case neg => rw [if_neg c3]; exact ⟨fun h => absurd (h.hint t rfl) c3, fun _ => rfl⟩
      rw [if_pos c3, fields_step false (by decide) (hp p rfl), r3]
      by_cases c4 : p.length ≤ 255
      · rw [if_pos c4, fields_end]
        exact ⟨fun _ => rfl, fun h => absurd ⟨c1, c2, fun t ht => (by cases ht; exact c3), fun t ht => (by cases ht; exact c4)⟩ h⟩
      · rw [if_neg c4]; exact ⟨fun h => absurd (h.pet p rfl) c4, fun _ => rfl⟩

theorem takeWhile_cstr {s : Bytes} (h : CStr s) : s.takeWhile (· ≠ 0) = s := by
  induction s with
  | nil => rfl
  | cons c s ih =>
    have hc : c ≠ 0 := fun h0 => h (by simp [h0])
    rw [List.takeWhile_cons, if_pos (by simpa using hc), ih fun h0 => h (by simp [h0])]

theorem opt_eq {o : Option Bytes} (h : ∀ t ∈ o, CStr t) : opt ((o.getD []).takeWhile (· ≠ 0)) = nonempty o := by
  cases o with
  | none => rfl
  | some t =>
    simp only [Option.getD_some]
    rw [takeWhile_cstr (h t rfl)]
    unfold opt nonempty
    by_cases ht : t = []
    · subst ht; rfl
    · rw [if_neg ht]; simp [Option.filter, ht]

theorem fromFields_item {it : Item} (h : Texts it) (ht : it.type ≠ []) (hv : it.value ≠ []) (hp : it.priv = true) :
    fromFields (fieldsOf it) = some (privBack it) := by
  obtain ⟨ty, va, hi, pe, pr⟩ := it
  obtain ⟨h1, h2, hh, hpe⟩ := h
  simp only at hp h1 h2 hh hpe ht hv
  subst hp
  have h0 : cs (fieldsOf ⟨ty, va, hi, pe, true⟩) 0 = ty := takeWhile_cstr h1
  have h1 : cs (fieldsOf ⟨ty, va, hi, pe, true⟩) 1 = va := takeWhile_cstr h2
  unfold fromFields
  rw [h0, h1, if_neg (by rintro (e | e); exact ht e; exact hv e)]
  have h2 : cs (fieldsOf ⟨ty, va, hi, pe, true⟩) 2 = (hi.getD []).takeWhile (· ≠ 0) := by
    cases pe <;> cases hi <;> rfl
  have h3 : cs (fieldsOf ⟨ty, va, hi, pe, true⟩) 3 = (pe.getD []).takeWhile (· ≠ 0) := by
    cases pe <;> cases hi <;> rfl
  rw [h2, h3, opt_eq hh, opt_eq hpe]
  rfl

theorem same_trans {a b c : Lst} (h : Same a b) (h' : Same b c) : Same a c :=
  ⟨h'.1.trans h.1, h'.2.1.trans h.2.1, h'.2.2.1.trans h.2.2.1, h'.2.2.2.1.trans h.2.2.2.1, h'.2.2.2.2.trans h.2.2.2.2⟩

theorem same_refl (a : Lst) : Same a a := ⟨rfl, rfl, rfl, rfl, rfl⟩

theorem itemText_ge (it : Item) : 1 ≤ (itemText it).length := by
  unfold itemText; simp only [List.length_append, List.length_cons, List.length_nil]; omega

/-- A private item with C strings as fields, type and value not empty. -/
def Sane (it : Item) : Prop := Texts it ∧ it.type ≠ [] ∧ it.value ≠ [] ∧ it.priv = true

theorem parseItems_cons (it : Item) (its : List Item) (first : Bool) (l : Lst) (f : Nat) :
    parseItems (f + 1) l (listText first (it :: its) ++ [0x5d]) =
      match fields ((itemText it ++ (listText false its ++ [0x5d])).length) 0 [] ((itemText it ++ (listText false its ++ [0x5d])).drop 1) with
      | none => .err .jsonParse
      | some (fs, r1) =>
          match fromFields fs with
          | none => parseItems f l (if r1.head? = some 0x5d then r1.drop 1 else r1)
          | some it => addItem true true l it >>= fun q =>
              match q.2 with
              | some e => .err e
              | none => parseItems f q.1 (if r1.head? = some 0x5d then r1.drop 1 else r1) := by
  have ht : listText first (it :: its) ++ [0x5d] = (if first then [] else [0x2c]) ++ (itemText it ++ (listText false its ++ [0x5d])) := by
    simp [listText]
  have hw : skipWs ((if first then [] else [0x2c]) ++ (itemText it ++ (listText false its ++ [0x5d]))) = itemText it ++ (listText false its ++ [0x5d]) := by
    have : ∀ r, skipWs (itemText it ++ r) = itemText it ++ r := by intro r; rw [itemText_eq, skipWs_open]
    cases first
    · simp only [Bool.false_eq_true, if_false, List.singleton_append, skipWs_comma, this]
    · simp only [if_true, List.nil_append, this]
  have hne : (if first then [] else [0x2c]) ++ (itemText it ++ (listText false its ++ [0x5d])) ≠ [] := by
    have := itemText_ge it
    intro h0
    have := congrArg List.length h0
    simp only [List.length_append, List.length_nil] at this
    omega
  rw [ht, parseItems, if_neg hne, hw, itemText_eq]
  show (if (0x5b : UInt8) = 0x5d then _ else _) = _
  rw [if_neg (by decide), if_neg (by decide)]
  rfl

theorem parseItems_text : ∀ (its : List Item) (first : Bool) (l : Lst) (s : List Item) (f : Nat), Rep l s →
    (∀ it ∈ its, Sane it) → s.length + its.length ≤ 4096 → its.length < f →
    ((∀ it ∈ its, Fits it) → ∃ l', parseItems f l (listText first its ++ [0x5d]) = .ok l' ∧ Rep l' (s ++ its.map privBack) ∧ Same l l') ∧
    ((∃ it ∈ its, ¬ Fits it) → parseItems f l (listText first its ++ [0x5d]) = .err .jsonParse) := by
  intro its
  induction its with
  | nil =>
    intro first l s f hr _ _ hf
    obtain ⟨f, rfl⟩ : ∃ g, f = g + 1 := ⟨f - 1, by simp at hf; omega⟩
    refine ⟨fun _ => ⟨l, ?_, by simpa using hr, same_refl l⟩, fun ⟨it, h, _⟩ => by cases h⟩
    rw [listText, List.nil_append, parseItems, if_neg (by simp), skipWs_close]
    simp
  | cons it its ih =>
    intro first l s f hr hi hs hf
    obtain ⟨f, rfl⟩ : ∃ g, f = g + 1 := ⟨f - 1, by omega⟩
    simp only [List.length_cons] at hs hf
    obtain ⟨htx, hty, hva, hpriv⟩ := hi it (by simp)
    obtain ⟨l1, e1, e2, e3⟩ := addItem_ok (privBack it) hr (by omega)
    have ih := ih false l1 (s ++ [privBack it]) f e2 (fun j hj => hi j (by simp [hj]))
      (by simp only [List.length_append, List.length_singleton]; omega) (by omega)
    have hlen : 5 ≤ (itemText it ++ (listText false its ++ [0x5d])).length := by
      unfold itemText; simp only [List.length_append, List.length_cons, List.length_nil]; omega
    have hf := fields_item htx (listText false its ++ [0x5d]) hlen
    rw [parseItems_cons]
    have e : (itemText it ++ (listText false its ++ [0x5d])).drop 1 = ((if true then [] else [0x2c]) ++ 0x22 :: (esc it.type ++ 0x22 ::
      ((if false then [] else [0x2c]) ++ 0x22 :: (esc it.value ++ 0x22 :: (hintText it.hint ++ petText it.hint it.pet ++ 0x5d :: (listText false its ++ [0x5d])))))) := by
      rw [itemText_eq]; rfl
    rw [e]
    by_cases hfit : Fits it
    · rw [hf.1 hfit]
      simp only [fromFields_item htx hty hva hpriv, e1, Res.bind_ok, List.head?_cons, if_true, List.drop_succ_cons, List.drop_zero]
      refine ⟨fun h => ?_, fun ⟨j, hj, hjf⟩ => ?_⟩
      · obtain ⟨l2, e4, e5, e6⟩ := ih.1 fun j hj => h j (by simp [hj])
        exact ⟨l2, e4, by simpa using e5, same_trans e3 e6⟩
      · rcases List.mem_cons.1 hj with rfl | hj
        · exact absurd hfit hjf
        · exact ih.2 ⟨j, hj, hjf⟩
    · rw [hf.2 hfit]
      exact ⟨fun h => absurd (h it (by simp)) hfit, fun _ => rfl⟩

theorem esc_cstr {s : Bytes} (h : CStr s) : CStr (esc s) := by
  induction s with
  | nil => exact h
  | cons c s ih =>
    have hc : c ≠ 0 := fun h0 => h (by simp [h0])
    have ht : ∀ n < 256, n ≠ 0 → (0 : UInt8) ∉ escChar51 (UInt8.ofNat n) := by decide +kernel
    have := ht c.toNat c.toNat_lt fun h => hc (UInt8.toNat_inj.1 h)
    rw [UInt8.ofNat_toNat] at this
    intro h0
    rcases List.mem_append.1 (show (0 : UInt8) ∈ escChar51 c ++ esc s from h0) with h1 | h1
    · exact this h1
    · exact ih (fun h0 => h (by simp [h0])) h1

theorem cstr_append {a b : Bytes} (ha : CStr a) (hb : CStr b) : CStr (a ++ b) := by
  intro h; rcases List.mem_append.1 h with h | h
  · exact ha h
  · exact hb h

theorem itemText_cstr {it : Item} (h : Texts it) : CStr (itemText it) := by
  have hh : CStr (hintText it.hint) := by
    cases hi : it.hint with
    | none => simp [hintText, CStr]
    | some t =>
      have := esc_cstr (h.2.2.1 t (by rw [hi]; rfl))
      exact cstr_append (a := [0x2c, 0x22]) (by decide) (cstr_append this (by decide))
  have hp : CStr (petText it.hint it.pet) := by
    cases hi : it.pet with
    | none => simp [petText, CStr]
    | some t =>
      have := esc_cstr (h.2.2.2 t (by rw [hi]; rfl))
      refine cstr_append (by split <;> decide) (cstr_append (a := [0x2c, 0x22]) (by decide) (cstr_append this (by decide)))
  unfold itemText
  exact cstr_append (cstr_append (cstr_append (cstr_append (cstr_append (cstr_append (cstr_append (by decide) (esc_cstr h.1)) (by decide))
    (esc_cstr h.2.1)) (by decide)) hh) hp) (by decide)

theorem listText_cstr : ∀ {its : List Item} {first : Bool}, (∀ it ∈ its, Texts it) → CStr (listText first its) := by
  intro its
  induction its with
  | nil => intro first _; simp [listText, CStr]
  | cons it its ih =>
    intro first h
    exact cstr_append (cstr_append (by cases first <;> decide) (itemText_cstr (h it (by simp)))) (ih fun j hj => h j (by simp [hj]))

theorem listText_len : ∀ (its : List Item) (first : Bool), its.length ≤ (listText first its).length := by
  intro its
  induction its with
  | nil => intro first; simp [listText]
  | cons it its ih =>
    intro first
    have := ih false
    have := itemText_ge it
    simp only [listText, List.length_append, List.length_cons]
    omega

theorem parsePrivate_text {its : List Item} {l : Lst} {s : List Item} (hr : Rep l s) (hi : ∀ it ∈ its, Sane it)
    (hs : s.length + its.length ≤ 4096) :
    ((∀ it ∈ its, Fits it) → ∃ l', parsePrivate l (0x5b :: (listText true its ++ [0x5d])) = .ok l' ∧ Rep l' (s ++ its.map privBack) ∧ Same l l') ∧
    ((∃ it ∈ its, ¬ Fits it) → parsePrivate l (0x5b :: (listText true its ++ [0x5d])) = .err .jsonParse) := by
  have hl := listText_len its true
  unfold parsePrivate
  rw [if_neg (by simp only [List.length_cons, List.length_append, List.length_nil]; omega)]
  simp only [List.dropWhile_cons, ne_eq, not_true_eq_false, decide_false, Bool.false_eq_true, if_false]
  exact parseItems_text its true l s _ hr hi hs (by simp only [List.length_append, List.length_singleton]; omega)

end Nostr.Nip51
