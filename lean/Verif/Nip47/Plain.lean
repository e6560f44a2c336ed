import Verif.Nip47.Params

/-! # Property theorems: C100 (builders without cJSON)

The right parameters have one compact JSON text. Without cJSON every builder writes exactly that text when the texts in it need no
escaping and it fits into the builder's buffer. -/

namespace Nostr.Nip47.Props
open Nostr Nostr.Nip47 Nostr.Json Nostr.Event Nostr.RelayProto Spec

theorem members_at (d : Nat) : ∀ (m : List (Bytes × Json)),
    printMembers false d m = (commas (m.map fun p => quoted p.1 ++ 0x3a :: print false d p.2)).flatten
  | [] => rfl
  | [(k, j)] => by simp [printMembers, commas]
  | (k, j) :: q :: m => by
    have ih := members_at d (q :: m)
    rw [printMembers, ih]
    simp [commas]

theorem elems_at (d : Nat) : ∀ (l : List Json), printElems false d l = (commas (l.map (print false (d + 1)))).flatten
  | [] => rfl
  | [j] => by simp [printElems, commas]
  | j :: q :: l => by
    have ih := elems_at d (q :: l)
    rw [printElems, ih]
    simp [commas]

/-- A text member. -/
theorem member_str {k s : Bytes} (hk : escape k = k) (hs : Plain s) : member (k, .str s) = c!"\"" ++ k ++ c!"\":\"" ++ s ++ c!"\"" := by
  simp [member, print, quoted, hk, escape_plain hs]

/-- A number member. -/
theorem member_num {k t : Bytes} (hk : escape k = k) : member (k, .num t) = c!"\"" ++ k ++ c!"\":" ++ t := by
  simp [member, print, quoted, hk]

theorem opt_map {α : Type} (k : Bytes) (f : α → Json) (o : Option α) (g : α → Bytes) (h : ∀ a ∈ o, member (k, f a) = g a) :
    (opt k f o).map member = piece (o.map g) := by
  cases o with
  | none => rfl
  | some a => simp [opt, piece, h a rfl]

theorem commas_cons (t : Bytes) (ts : List Bytes) : (commas (t :: ts)).flatten = t ++ (ts.map (c!"," ++ ·)).flatten := by
  simp [commas]

/-- `,` in front of every piece. -/
theorem piece_comma (o : Option Bytes) : (piece o).map (c!"," ++ ·) = piece (o.map (c!"," ++ ·)) := by
  cases o <;> rfl

/-- C100: `make_invoice` without cJSON, for texts that need no escaping and fit. Missing: texts that do not fit together
(`C100_make_overflow_refuted`). -/
theorem C100_make_partial {amount : Nat} {descr hash : Option Bytes} {expiry : Option Nat} (h0 : amount ≠ 0) (ha : amount < 2 ^ 64)
    (hd : ∀ s ∈ descr, Plain s ∧ s.length < 2048) (hh : ∀ s ∈ hash, Plain s ∧ s.length < 2048) (he : ∀ n ∈ expiry, n < 2 ^ 32)
    {tree : Json} (ht : tree = .obj ((c!"amount", number amount) :: (opt (c!"description") .str descr ++ opt (c!"description_hash") .str hash ++
        opt (c!"expiry") (fun n => number (n : Nat)) expiry)))
    (hl : (print false 0 tree).length < 4096) :
    makeInvoicePlain amount descr hash expiry = .ok (print false 0 tree) ∧ parse (print false 0 tree) = some tree := by
  have hb : parse (print false 0 tree) = some tree := by
    rw [ht]
    exact flat_back (flat_cons (by decide) (scalar_number (by omega)) (flat_append (flat_append
      (flat_opt (by decide) fun s hs => scalar_str (plain_cstr (hd s hs).1)) (flat_opt (by decide) fun s hs => scalar_str (plain_cstr (hh s hs).1)))
      (flat_opt (by decide) fun n hn => scalar_number (by have := he n hn; omega))))
  refine ⟨?_, hb⟩
  unfold makeInvoicePlain
  rw [if_neg h0]
  have e : ((c!"{\"amount\":" ++ Num.decNat amount) ::
    (piece (descr.map fun s => c!",\"description\":\"" ++ (jsonEscape 2048 s).getD [] ++ c!"\"") ++
     piece (hash.map fun s => c!",\"description_hash\":\"" ++ (jsonEscape 2048 s).getD [] ++ c!"\"") ++
     piece (expiry.map fun n => c!",\"expiry\":" ++ Num.decNat n) ++ [c!"}"])).flatten = print false 0 tree := by
    rw [ht, obj_text, List.map_cons, commas_cons]
    simp only [List.map_append]
    rw [opt_map (c!"description") _ _ (fun s => c!"\"description\":\"" ++ s ++ c!"\"") fun s hs => by rw [member_str (by decide) (hd s hs).1]; rfl]
    rw [opt_map (c!"description_hash") _ _ (fun s => c!"\"description_hash\":\"" ++ s ++ c!"\"") fun s hs => by rw [member_str (by decide) (hh s hs).1]; rfl]
    rw [opt_map (c!"expiry") _ _ (fun n => c!"\"expiry\":" ++ Num.decNat n) fun n hn => by rw [number, member_num (by decide), decInt_nat]; rfl]
    rw [number, member_num (by decide), decInt_nat]
    simp only [List.map_append, piece_comma, Option.map_map]
    have e1 : (descr.map fun s => c!",\"description\":\"" ++ (jsonEscape 2048 s).getD [] ++ c!"\"") =
        descr.map ((c!"," ++ ·) ∘ fun s => c!"\"description\":\"" ++ s ++ c!"\"") := by
      cases descr with
      | none => rfl
      | some s => simp [jsonEscape_plain (hd s rfl).1 (hd s rfl).2]
    have e2 : (hash.map fun s => c!",\"description_hash\":\"" ++ (jsonEscape 2048 s).getD [] ++ c!"\"") =
        hash.map ((c!"," ++ ·) ∘ fun s => c!"\"description_hash\":\"" ++ s ++ c!"\"") := by
      cases hash with
      | none => rfl
      | some s => simp [jsonEscape_plain (hh s rfl).1 (hh s rfl).2]
    have e3 : (expiry.map fun n => c!",\"expiry\":" ++ Num.decNat n) = expiry.map ((c!"," ++ ·) ∘ fun n => c!"\"expiry\":" ++ Num.decNat n) := by
      cases expiry <;> rfl
    rw [e1, e2, e3]
    simp
  rw [printed_fits (by rw [e]; exact hl), e]

/-- C100: `list_transactions` without cJSON, for a type that needs no escaping and fits. -/
theorem C100_list_partial {a b : Option Int} {limit offset : Option Nat} {unpaid : Option Bool} {type : Option Bytes}
    (ha : ∀ n ∈ a, n.natAbs < 2 ^ 64) (hb : ∀ n ∈ b, n.natAbs < 2 ^ 64) (hm : ∀ n ∈ limit, n < 2 ^ 32) (ho : ∀ n ∈ offset, n < 2 ^ 32)
    (hy : ∀ s ∈ type, Plain s) {tree : Json}
    (ht : tree = .obj (opt (c!"from") number a ++ opt (c!"until") number b ++ opt (c!"limit") (fun n => number (n : Nat)) limit ++
      opt (c!"offset") (fun n => number (n : Nat)) offset ++ opt (c!"unpaid") (fun b => if b then .tru else .fls) unpaid ++ opt (c!"type") .str type))
    (hl : (print false 0 tree).length < 4096) :
    listTxPlain a b limit offset unpaid type = .ok (print false 0 tree) ∧ parse (print false 0 tree) = some tree := by
  have hp : parse (print false 0 tree) = some tree := by
    rw [ht]
    exact flat_back (flat_append (flat_append (flat_append (flat_append (flat_append
      (flat_opt (by decide) fun n hn => scalar_number (by have := ha n hn; omega)) (flat_opt (by decide) fun n hn => scalar_number (by have := hb n hn; omega)))
      (flat_opt (by decide) fun n hn => scalar_number (by have := hm n hn; omega))) (flat_opt (by decide) fun n hn => scalar_number (by have := ho n hn; omega)))
      (flat_opt (by decide) fun b _ => scalar_bool b)) (flat_opt (by decide) fun s hs => scalar_str (plain_cstr (hy s hs))))
  refine ⟨?_, hp⟩
  unfold listTxPlain
  have e : (c!"{" :: (commas (piece (a.map fun n => c!"\"from\":" ++ Num.decInt n) ++
    piece (b.map fun n => c!"\"until\":" ++ Num.decInt n) ++
    piece (limit.map fun n => c!"\"limit\":" ++ Num.decNat n) ++
    piece (offset.map fun n => c!"\"offset\":" ++ Num.decNat n) ++
    piece (unpaid.map fun b => c!"\"unpaid\":" ++ (if b then c!"true" else c!"false")) ++
    piece (type.map fun s => c!"\"type\":\"" ++ s ++ c!"\"")) ++ [c!"}"])).flatten = print false 0 tree := by
    rw [ht, obj_text]
    simp only [List.map_append]
    rw [opt_map (c!"from") _ _ (fun n => c!"\"from\":" ++ Num.decInt n) fun n _ => by rw [number, member_num (by decide)]; rfl]
    rw [opt_map (c!"until") _ _ (fun n => c!"\"until\":" ++ Num.decInt n) fun n _ => by rw [number, member_num (by decide)]; rfl]
    rw [opt_map (c!"limit") _ _ (fun n => c!"\"limit\":" ++ Num.decNat n) fun n _ => by rw [number, member_num (by decide), decInt_nat]; rfl]
    rw [opt_map (c!"offset") _ _ (fun n => c!"\"offset\":" ++ Num.decNat n) fun n _ => by rw [number, member_num (by decide), decInt_nat]; rfl]
    rw [opt_map (c!"unpaid") _ _ (fun b => c!"\"unpaid\":" ++ (if b then c!"true" else c!"false")) fun b _ => by cases b <;> decide]
    rw [opt_map (c!"type") _ _ (fun s => c!"\"type\":\"" ++ s ++ c!"\"") fun s hs => by rw [member_str (by decide) (hy s hs)]; rfl]
    simp
  rw [printed_fits (by rw [e]; exact hl), e]

/-- One record in compact JSON. -/
def recordJson (p : Int × Bytes) : Json := .obj [(c!"type", number p.1), (c!"value", .str p.2)]

theorem record_text (d : Nat) {p : Int × Bytes} (hp : Plain p.2) :
    print false d (recordJson p) = c!"{\"type\":" ++ Num.decInt p.1 ++ c!",\"value\":\"" ++ p.2 ++ c!"\"}" := by
  simp [recordJson, print, printMembers, number, quoted, escape_plain hp, show escape (c!"type") = c!"type" by decide,
    show escape (c!"value") = c!"value" by decide]

theorem tlv_false (l : List (Bytes × Bytes)) :
    (tlvPieces false l).flatten = (l.map fun p => c!"," ++ (c!"{\"type\":" ++ p.1 ++ c!",\"value\":\"" ++ p.2 ++ c!"\"}")).flatten := by
  induction l with
  | nil => rfl
  | cons p l ih => simp [tlvPieces, ih]

theorem tlv_true {l : List (Int × Bytes)} (hl : ∀ p ∈ l, Plain p.2) :
    (tlvPieces true (l.map fun p => (Num.decInt p.1, p.2))).flatten = printElems false 1 (l.map recordJson) := by
  rw [elems_at]
  cases l with
  | nil => rfl
  | cons p l =>
    rw [List.map_cons, tlvPieces, if_pos rfl, List.map_cons, List.map_cons, commas_cons, record_text _ (hl p (by simp))]
    simp only [List.nil_append, List.flatten_append, tlv_false, List.map_map]
    have : (l.map ((fun p => c!"," ++ (c!"{\"type\":" ++ p.1 ++ c!",\"value\":\"" ++ p.2 ++ c!"\"}")) ∘ fun p => (Num.decInt p.1, p.2))) =
        l.map ((fun x => c!"," ++ x) ∘ (print false (1 + 1) ∘ recordJson)) := by
      apply List.map_congr_left
      intro q hq
      simp only [Function.comp, record_text _ (hl q (by simp [hq]))]
    rw [this]
    simp

/-- C100: `pay_keysend` without cJSON, for texts that need no escaping and fit. Missing: other texts
(`C100_keysend_overflow_refuted`). -/
theorem C100_keysend_partial {amount : Nat} {pubkey : Bytes} {preimage : Option Bytes} {l : List (Int × Bytes)} (h0 : amount ≠ 0)
    (ha : amount < 2 ^ 64) (hp : Plain pubkey) (hi : ∀ s ∈ preimage, Plain s) (hr : ∀ p ∈ l, p.1.natAbs < 10 ^ 15 ∧ Plain p.2)
    {tree : Json} (ht : tree = .obj ((c!"amount", number amount) :: (c!"pubkey", .str pubkey) :: (opt (c!"preimage") .str preimage ++
        (if l = [] then [] else [(c!"tlv_records", records l)]))))
    (hl : (print false 0 tree).length < 8192) :
    payKeysendPlain amount pubkey preimage (recordTexts l) = .ok (print false 0 tree) ∧ parse (print false 0 tree) = some tree := by
  have hb : parse (print false 0 tree) = some tree := by
    rw [ht]
    have hg := records_back (l := l) fun p hp => ⟨by unfold Exact; exact (hr p hp).1, plain_cstr (hr p hp).2⟩
    refine print_back ?_ ?_
    · intro p hp'
      simp only [List.mem_cons, List.mem_append] at hp'
      rcases hp' with rfl | rfl | hp' | hp'
      · exact ⟨(by decide : CStr (c!"amount")), goodNum_decInt (by omega)⟩
      · exact ⟨(by decide : CStr (c!"pubkey")), plain_cstr hp⟩
      · have := flat_opt (name := c!"preimage") (f := .str) (by decide) (fun s hs => scalar_str (plain_cstr (hi s hs))) p hp'
        exact ⟨this.1, this.2.1⟩
      · split at hp'
        · simp at hp'
        · simp only [List.mem_singleton] at hp'; subst hp'; exact ⟨(by decide : CStr (c!"tlv_records")), hg.1⟩
    · intro p hp'
      simp only [List.mem_cons, List.mem_append] at hp'
      rcases hp' with rfl | rfl | hp' | hp'
      · simp [height, number]
      · simp [height]
      · have := flat_opt (name := c!"preimage") (f := .str) (by decide) (fun s hs => scalar_str (plain_cstr (hi s hs))) p hp'
        rw [this.2.2]; omega
      · split at hp'
        · simp at hp'
        · simp only [List.mem_singleton] at hp'; subst hp'; exact hg.2
  refine ⟨?_, hb⟩
  unfold payKeysendPlain
  rw [if_neg h0]
  have er : (if recordTexts l = [] then [] else c!",\"tlv_records\":[" :: (tlvPieces true (tlvPairs (recordTexts l)) ++ [c!"]"])).flatten =
      (((if l = [] then [] else [(c!"tlv_records", records l)]).map member).map (c!"," ++ ·)).flatten := by
    cases l with
    | nil => rfl
    | cons p l =>
      rw [if_neg (by simp [recordTexts]), if_neg (by simp), tlvPairs_texts]
      have := tlv_true fun q hq => (hr q hq).2
      have hrec : records (p :: l) = .arr ((p :: l).map recordJson) := rfl
      simp only [List.flatten_cons, List.flatten_append, this, List.map_cons, List.map_nil, member, hrec, print, quoted,
        show escape (c!"tlv_records") = c!"tlv_records" by decide]
      simpa using this
  have e : ((c!"{\"amount\":" ++ Num.decNat amount ++ c!",\"pubkey\":\"" ++ pubkey ++ c!"\"") ::
    (piece (preimage.map fun s => c!",\"preimage\":\"" ++ s ++ c!"\"") ++
     (if recordTexts l = [] then [] else c!",\"tlv_records\":[" :: (tlvPieces true (tlvPairs (recordTexts l)) ++ [c!"]"])) ++ [c!"}"])).flatten =
      print false 0 tree := by
    rw [ht, obj_text, List.map_cons, commas_cons]
    simp only [List.map_cons, List.map_append]
    rw [opt_map (c!"preimage") _ _ (fun s => c!"\"preimage\":\"" ++ s ++ c!"\"") fun s hs => by rw [member_str (by decide) (hi s hs)]; rfl]
    rw [number, member_num (by decide), decInt_nat, member_str (by decide) hp]
    simp only [List.flatten_cons, List.flatten_append, er]
    simp only [List.map_append, List.map_cons, piece_comma, Option.map_map, List.flatten_cons, List.flatten_append]
    have e1 : (preimage.map fun s => c!",\"preimage\":\"" ++ s ++ c!"\"") = preimage.map ((c!"," ++ ·) ∘ fun s => c!"\"preimage\":\"" ++ s ++ c!"\"") := by
      cases preimage <;> rfl
    rw [e1]
    simp
  rw [printed_fits (by rw [e]; exact hl), e]

/-- The text of one payment. -/
theorem pay_text (d : Nat) {p : Pay} (hi : Plain p.invoice) (hd : ∀ s ∈ p.id, Plain s) :
    print false d (payJson p) = ([c!"{"] ++ piece (p.id.map fun s => c!"\"id\":\"" ++ s ++ c!"\",") ++ [c!"\"invoice\":\"" ++ p.invoice ++ c!"\""] ++
      (if p.amount > 0 then [c!",\"amount\":" ++ Num.decNat p.amount] else []) ++ [c!"}"]).flatten := by
  obtain ⟨id, inv, am⟩ := p
  simp only at hi hd
  simp only [payJson, print, members_at]
  cases id with
  | none =>
    by_cases h : am > 0
    · simp [opt, piece, h, commas, print, quoted, escape_plain hi, number, decInt_nat, show escape (c!"invoice") = c!"invoice" by decide,
        show escape (c!"amount") = c!"amount" by decide]
    · simp [opt, piece, h, commas, print, quoted, escape_plain hi, show escape (c!"invoice") = c!"invoice" by decide]
  | some s =>
    by_cases h : am > 0
    · simp [opt, piece, h, commas, print, quoted, escape_plain hi, escape_plain (hd s rfl), number, decInt_nat,
        show escape (c!"invoice") = c!"invoice" by decide, show escape (c!"amount") = c!"amount" by decide, show escape (c!"id") = c!"id" by decide]
    · simp [opt, piece, h, commas, print, quoted, escape_plain hi, escape_plain (hd s rfl), show escape (c!"invoice") = c!"invoice" by decide,
        show escape (c!"id") = c!"id" by decide]

theorem pays_false {l : List Pay} (hl : ∀ p ∈ l, Plain p.invoice ∧ ∀ s ∈ p.id, Plain s) :
    (payPieces false l).flatten = (l.map fun p => c!"," ++ print false 2 (payJson p)).flatten := by
  induction l with
  | nil => rfl
  | cons p l ih =>
    simp only [payPieces, List.flatten_append, List.map_cons, List.flatten_cons, ih fun q hq => hl q (by simp [hq]),
      pay_text 2 (hl p (by simp)).1 (hl p (by simp)).2]
    simp

theorem pays_true {l : List Pay} (hl : ∀ p ∈ l, Plain p.invoice ∧ ∀ s ∈ p.id, Plain s) :
    (payPieces true l).flatten = printElems false 1 (l.map payJson) := by
  rw [elems_at]
  cases l with
  | nil => rfl
  | cons p l =>
    have hf := pays_false (l := l) fun q hq => hl q (by simp [hq])
    simp only [payPieces, List.flatten_append, List.map_cons, commas_cons, hf,
      pay_text 2 (hl p (by simp)).1 (hl p (by simp)).2, List.map_map]
    simp [Function.comp_def]

/-- C100: `multi_pay_invoice` without cJSON, for texts that need no escaping and fit. Missing: other texts
(`C100_multi_overflow_refuted`). -/
theorem C100_multi_partial {l : List Pay} (h : l ≠ []) (hp : ∀ p ∈ l, p.amount < 2 ^ 64 ∧ Plain p.invoice ∧ ∀ s ∈ p.id, Plain s)
    {tree : Json} (ht : tree = .obj [(c!"invoices", .arr (l.map payJson))]) (hl : (print false 0 tree).length < 16384) :
    multiPayPlain l = .ok (print false 0 tree) ∧ parse (print false 0 tree) = some tree := by
  refine ⟨?_, by rw [ht]; exact pays_back fun p hx => ⟨by have := (hp p hx).1; omega, plain_cstr (hp p hx).2.1, fun s hs => plain_cstr ((hp p hx).2.2 s hs)⟩⟩
  unfold multiPayPlain
  rw [if_neg h]
  have e : (c!"{\"invoices\":[" :: (payPieces true l ++ [c!"]}"])).flatten = print false 0 tree := by
    rw [ht, obj_text]
    simp only [List.flatten_cons, List.flatten_append, pays_true fun p hx => (hp p hx).2, List.map_cons, List.map_nil, member, print, quoted, commas,
      show escape (c!"invoices") = c!"invoices" by decide]
    simp
  rw [printed_fits (by rw [e]; exact hl), e]

/-- The hypotheses are met: two payments, one with a name and without an amount. -/
example : multiPayPlain [⟨some c!"a", c!"lnbc1", 0⟩, ⟨none, c!"lnbc2", 7⟩] =
    .ok c!"{\"invoices\":[{\"id\":\"a\",\"invoice\":\"lnbc1\"},{\"invoice\":\"lnbc2\",\"amount\":7}]}" := by decide +kernel

example : payKeysendPlain 5 c!"02ab" none (recordTexts [(7, c!"x"), (-1, c!"y")]) =
    .ok c!"{\"amount\":5,\"pubkey\":\"02ab\",\"tlv_records\":[{\"type\":7,\"value\":\"x\"},{\"type\":-1,\"value\":\"y\"}]}" := by decide +kernel

example : makeInvoicePlain 5 (some c!"tea") none (some 60) = .ok c!"{\"amount\":5,\"description\":\"tea\",\"expiry\":60}" ∧
    listTxPlain (some (-1)) none none (some 3) (some true) (some c!"incoming") =
      .ok c!"{\"from\":-1,\"offset\":3,\"unpaid\":true,\"type\":\"incoming\"}" := by decide +kernel

end Nostr.Nip47.Props
