import Verif.Nip47.Props

/-! # Property theorems: C99 and C100 (parameters of wallet commands) -/

namespace Nostr.Nip47.Props
open Nostr Nostr.Nip47 Nostr.Json Nostr.Event Nostr.RelayProto Spec

/-! ## Trees -/

theorem goodM_iff (m : List (Bytes × Json)) : GoodM m ↔ ∀ p ∈ m, CStr p.1 ∧ Good p.2 := by
  induction m with
  | nil => simp [GoodM]
  | cons p m ih => obtain ⟨k, j⟩ := p; simp only [GoodM, ih, List.forall_mem_cons, and_assoc]

theorem goodL_iff (l : List Json) : GoodL l ↔ ∀ j ∈ l, Good j := by
  induction l with
  | nil => simp [GoodL]
  | cons j l ih => simp only [GoodL, ih, List.forall_mem_cons]

theorem heightM_le {m : List (Bytes × Json)} {k : Nat} (h : ∀ p ∈ m, height p.2 ≤ k) : heightM m ≤ k := by
  induction m with
  | nil => simp [heightM]
  | cons p m ih =>
    obtain ⟨n, j⟩ := p
    have h1 : height j ≤ k := h (n, j) (by simp)
    have h2 := ih fun p hp => h p (by simp [hp])
    simp only [heightM]
    omega

theorem heightL_le {l : List Json} {k : Nat} (h : ∀ j ∈ l, height j ≤ k) : heightL l ≤ k := by
  induction l with
  | nil => simp [heightL]
  | cons j l ih =>
    have h1 := h j (by simp)
    have h2 := ih fun p hp => h p (by simp [hp])
    simp only [heightL]
    omega

theorem print_back {m : List (Bytes × Json)} (h : ∀ p ∈ m, CStr p.1 ∧ Good p.2) (hh : ∀ p ∈ m, height p.2 ≤ 10) :
    parse (print false 0 (.obj m)) = some (.obj m) := by
  have h2 := heightM_le hh
  have := parse_print false 0 (.obj m) (by simp only [Good]; exact (goodM_iff m).2 h)
    (by simp only [height, nestingLimit]; omega) [] (by intro c hc; simp at hc)
  rwa [List.append_nil] at this

/-- Values without members. -/
def Scalar (j : Json) : Prop := Good j ∧ height j = 0

theorem scalar_str {s : Bytes} (h : CStr s) : Scalar (.str s) := ⟨h, by simp [height]⟩
theorem scalar_number {n : Int} (h : n.natAbs < 10 ^ 20) : Scalar (number n) :=
  ⟨by simp only [number, Good]; exact goodNum_decInt h, by simp [number, height]⟩
theorem scalar_bool (b : Bool) : Scalar (if b then .tru else .fls) := by
  cases b <;> exact ⟨trivial, by simp [height]⟩

theorem flat_opt {α : Type} {name : Bytes} {f : α → Json} {o : Option α} (hn : CStr name) (h : ∀ a ∈ o, Scalar (f a)) :
    ∀ p ∈ opt name f o, CStr p.1 ∧ Scalar p.2 := by
  intro p hp
  cases o with
  | none => simp [opt] at hp
  | some a =>
    simp only [opt, Option.map_some, Option.toList_some, List.mem_singleton] at hp
    subst hp
    exact ⟨hn, h a rfl⟩

theorem flat_back {m : List (Bytes × Json)} (h : ∀ p ∈ m, CStr p.1 ∧ Scalar p.2) :
    parse (print false 0 (.obj m)) = some (.obj m) :=
  print_back (fun p hp => ⟨(h p hp).1, (h p hp).2.1⟩) fun p hp => by rw [(h p hp).2.2]; omega

theorem flat_append {a b : List (Bytes × Json)} (ha : ∀ p ∈ a, CStr p.1 ∧ Scalar p.2) (hb : ∀ p ∈ b, CStr p.1 ∧ Scalar p.2) :
    ∀ p ∈ a ++ b, CStr p.1 ∧ Scalar p.2 := by
  intro p hp
  rcases List.mem_append.1 hp with h | h
  · exact ha p h
  · exact hb p h

theorem flat_cons {k : Bytes} {j : Json} {b : List (Bytes × Json)} (hk : CStr k) (hj : Scalar j)
    (hb : ∀ p ∈ b, CStr p.1 ∧ Scalar p.2) : ∀ p ∈ (k, j) :: b, CStr p.1 ∧ Scalar p.2 := by
  intro p hp
  rcases List.mem_cons.1 hp with h | h
  · subst h; exact ⟨hk, hj⟩
  · exact hb p h

theorem strField_eq (name : Bytes) (o : Option Bytes) : strField name o = opt name .str o := by cases o <;> rfl
theorem boolField_eq (name : Bytes) (o : Option Bool) : boolField name o = opt name (fun b => if b then .tru else .fls) o := by
  cases o <;> rfl
theorem numField_eq (td : Int → Int) (fr : Int → Bytes) (name : Bytes) {o : Option Int} (h : ∀ n ∈ o, Exact n) :
    numField td fr name o = opt name number o := by
  cases o with
  | none => rfl
  | some n => simp only [numField, numTok_small td fr (h n rfl), opt, number]; rfl

theorem opt_nat (name : Bytes) (o : Option Nat) :
    opt name number (o.map fun (n : Nat) => (n : Int)) = opt name (fun n => number (n : Nat)) o := by cases o <;> rfl

/-! ## C99 -/

/-- C99: the parameters of `pay_invoice` are the given ones. Missing: amounts of 10^15 and more
(`C99_large_refuted`). -/
theorem C99_pay_invoice_partial (td : Int → Int) (fr : Int → Bytes) {invoice : Bytes} {amount : Option Nat} (hi : CStr invoice)
    (ha : ∀ n : Nat, n ∈ amount → Exact n) : parse (payInvoice td fr invoice amount) =
      some (.obj ((c!"invoice", .str invoice) :: opt (c!"amount") (fun n => number (n : Nat)) amount)) := by
  unfold payInvoice
  rw [numField_eq td fr _ (by intro n hn; obtain ⟨k, hk, rfl⟩ := Option.map_eq_some_iff.1 hn; exact ha k hk), opt_nat]
  refine flat_back (flat_cons (by decide) (scalar_str hi) (flat_opt (by decide) fun n hn => scalar_number ?_))
  have := ha n hn; unfold Exact at this; omega

/-- C99 for `make_invoice`. -/
theorem C99_make_invoice_partial (td : Int → Int) (fr : Int → Bytes) {amount : Nat} {descr hash : Option Bytes} {expiry : Option Nat}
    (h0 : amount ≠ 0) (ha : Exact amount) (hd : ∀ s ∈ descr, CStr s) (hh : ∀ s ∈ hash, CStr s) (he : ∀ n : Nat, n ∈ expiry → Exact n) :
    ∃ out, makeInvoice td fr amount descr hash expiry = .ok out ∧ parse out =
      some (.obj ((c!"amount", number amount) :: (opt (c!"description") .str descr ++ opt (c!"description_hash") .str hash ++
        opt (c!"expiry") (fun n => number (n : Nat)) expiry))) := by
  unfold makeInvoice
  rw [if_neg h0, numField_eq td fr _ (by intro n hn; obtain ⟨k, hk, rfl⟩ := Option.map_eq_some_iff.1 hn; exact he k hk), opt_nat,
    numTok_small td fr ha, strField_eq, strField_eq]
  refine ⟨_, rfl, flat_back (flat_cons (by decide) (scalar_number ?_) (flat_append (flat_append
    (flat_opt (by decide) fun s hs => scalar_str (hd s hs)) (flat_opt (by decide) fun s hs => scalar_str (hh s hs)))
    (flat_opt (by decide) fun n hn => scalar_number ?_)))⟩
  · unfold Exact at ha; omega
  · have := he n hn; unfold Exact at this; omega

/-- C99 for `list_transactions`. -/
theorem C99_list_partial (td : Int → Int) (fr : Int → Bytes) {a b : Option Int} {limit offset : Option Nat} {unpaid : Option Bool}
    {type : Option Bytes} (ha : ∀ n ∈ a, Exact n) (hb : ∀ n ∈ b, Exact n) (hl : ∀ n : Nat, n ∈ limit → Exact n) (ho : ∀ n : Nat, n ∈ offset → Exact n)
    (ht : ∀ s ∈ type, CStr s) : parse (listTx td fr a b limit offset unpaid type) =
      some (.obj (opt (c!"from") number a ++ opt (c!"until") number b ++ opt (c!"limit") (fun n => number (n : Nat)) limit ++
        opt (c!"offset") (fun n => number (n : Nat)) offset ++ opt (c!"unpaid") (fun b => if b then .tru else .fls) unpaid ++
        opt (c!"type") .str type)) := by
  unfold listTx
  rw [numField_eq td fr _ ha, numField_eq td fr _ hb,
    numField_eq td fr _ (by intro n hn; obtain ⟨k, hk, rfl⟩ := Option.map_eq_some_iff.1 hn; exact hl k hk),
    numField_eq td fr _ (by intro n hn; obtain ⟨k, hk, rfl⟩ := Option.map_eq_some_iff.1 hn; exact ho k hk),
    opt_nat, opt_nat, boolField_eq, strField_eq]
  have ex : ∀ n : Int, Exact n → n.natAbs < 10 ^ 20 := by intro n h; unfold Exact at h; omega
  exact flat_back (flat_append (flat_append (flat_append (flat_append (flat_append
    (flat_opt (by decide) fun n hn => scalar_number (ex n (ha n hn))) (flat_opt (by decide) fun n hn => scalar_number (ex n (hb n hn))))
    (flat_opt (by decide) fun n hn => scalar_number (ex n (hl n hn)))) (flat_opt (by decide) fun n hn => scalar_number (ex n (ho n hn))))
    (flat_opt (by decide) fun b _ => scalar_bool b)) (flat_opt (by decide) fun s hs => scalar_str (ht s hs)))

/-- C99 for `lookup_invoice`. -/
theorem C99_lookup {hash invoice : Option Bytes} (h : hash ≠ none ∨ invoice ≠ none) (hh : ∀ s ∈ hash, CStr s)
    (hi : ∀ s ∈ invoice, CStr s) : ∃ out, lookupInvoice hash invoice = .ok out ∧ parse out =
      some (.obj (opt (c!"payment_hash") .str hash ++ opt (c!"invoice") .str invoice)) := by
  unfold lookupInvoice
  rw [if_neg (by rintro ⟨a, b⟩; rcases h with h | h <;> contradiction), strField_eq, strField_eq]
  exact ⟨_, rfl, flat_back (flat_append (flat_opt (by decide) fun s hs => scalar_str (hh s hs))
    (flat_opt (by decide) fun s hs => scalar_str (hi s hs)))⟩

/-- Custom records as JSON. -/
def records (l : List (Int × Bytes)) : Json := .arr (l.map fun p => .obj [(c!"type", number p.1), (c!"value", .str p.2)])

/-- Custom records as the flat list of texts the function takes. -/
def recordTexts (l : List (Int × Bytes)) : List Bytes := l.flatMap fun p => [Num.decInt p.1, p.2]

theorem tlvPairs_texts (l : List (Int × Bytes)) : tlvPairs (recordTexts l) = l.map fun p => (Num.decInt p.1, p.2) := by
  induction l with
  | nil => rfl
  | cons p l ih =>
    simp only [recordTexts, List.flatMap_cons, List.cons_append, List.nil_append, tlvPairs, List.map_cons]
    rw [← ih]; rfl

theorem records_back {l : List (Int × Bytes)} (hl : ∀ p ∈ l, Exact p.1 ∧ CStr p.2) :
    Good (records l) ∧ height (records l) ≤ 10 := by
  constructor
  · simp only [records, Good]
    refine (goodL_iff _).2 fun j hj => ?_
    obtain ⟨p, hp, rfl⟩ := List.mem_map.1 hj
    have := hl p hp
    simp only [Good, GoodM]
    refine ⟨by decide, ?_, by decide, this.2, trivial⟩
    exact goodNum_decInt (by have := this.1; unfold Exact at this; omega)
  · simp only [records, height]
    have : heightL (l.map fun p => .obj [(c!"type", number p.1), (c!"value", .str p.2)]) ≤ 1 := heightL_le fun j hj => by
      obtain ⟨p, hp, rfl⟩ := List.mem_map.1 hj
      simp [height, heightM, number]
    omega

/-- C99 for `pay_keysend`: amount, recipient, preimage and the records. -/
theorem C99_keysend_partial (td : Int → Int) (fr : Int → Bytes) {amount : Nat} {pubkey : Bytes} {preimage : Option Bytes}
    {l : List (Int × Bytes)} (h0 : amount ≠ 0) (ha : Exact amount) (hp : CStr pubkey) (hi : ∀ s ∈ preimage, CStr s)
    (hl : ∀ p ∈ l, Exact p.1 ∧ CStr p.2) :
    ∃ out, payKeysend td fr amount pubkey preimage (recordTexts l) = .ok out ∧ parse out =
      some (.obj ((c!"amount", number amount) :: (c!"pubkey", .str pubkey) :: (opt (c!"preimage") .str preimage ++
        (if l = [] then [] else [(c!"tlv_records", records l)])))) := by
  have e : tlvField td fr (recordTexts l) = if l = [] then [] else [(c!"tlv_records", records l)] := by
    unfold tlvField
    cases l with
    | nil => rfl
    | cons p l =>
      rw [if_neg (by simp [recordTexts]), if_neg (by simp), tlvPairs_texts, List.map_map]
      unfold records
      congr 3
      apply List.map_congr_left
      intro q hq
      have hx := (hl q hq).1
      have hs := Num.strtol_decInt (i := q.1) (rest := []) (by unfold Exact at hx; omega) (by unfold Exact at hx; omega) (by simp)
      rw [List.append_nil] at hs
      simp only [Function.comp, tlvTree, hs, numTok_small td fr hx, number]
  unfold payKeysend
  rw [if_neg h0, numTok_small td fr ha, strField_eq, e]
  refine ⟨_, rfl, print_back ?_ ?_⟩
  · intro p hp'
    simp only [List.mem_cons, List.mem_append] at hp'
    rcases hp' with rfl | rfl | hp' | hp'
    · exact ⟨(by decide : CStr (c!"amount")), goodNum_decInt (by unfold Exact at ha; omega)⟩
    · exact ⟨(by decide : CStr (c!"pubkey")), hp⟩
    · have := flat_opt (name := c!"preimage") (f := .str) (by decide) (fun s hs => scalar_str (hi s hs)) p hp'
      exact ⟨this.1, this.2.1⟩
    · split at hp'
      · simp at hp'
      · simp only [List.mem_singleton] at hp'; subst hp'; exact ⟨(by decide : CStr (c!"tlv_records")), (records_back hl).1⟩
  · intro p hp'
    simp only [List.mem_cons, List.mem_append] at hp'
    rcases hp' with rfl | rfl | hp' | hp'
    · simp [height]
    · simp [height]
    · have := flat_opt (name := c!"preimage") (f := .str) (by decide) (fun s hs => scalar_str (hi s hs)) p hp'
      rw [this.2.2]; omega
    · split at hp'
      · simp at hp'
      · simp only [List.mem_singleton] at hp'; subst hp'; exact (records_back hl).2

/-- One payment as JSON. -/
def payJson (p : Pay) : Json := .obj (opt (c!"id") .str p.id ++ [(c!"invoice", .str p.invoice)] ++
  (if p.amount > 0 then [(c!"amount", number p.amount)] else []))

theorem flat_pay {p : Pay} (h : (p.amount : Int).natAbs < 10 ^ 20) (hi : CStr p.invoice) (hd : ∀ s ∈ p.id, CStr s) :
    ∀ q ∈ opt (c!"id") Json.str p.id ++ [(c!"invoice", Json.str p.invoice)] ++
      (if p.amount > 0 then [(c!"amount", number p.amount)] else []), CStr q.1 ∧ Scalar q.2 := by
  refine flat_append (flat_append (flat_opt (by decide) fun s hs => scalar_str (hd s hs))
    (flat_cons (by decide) (scalar_str hi) (by simp))) ?_
  split
  · exact flat_cons (by decide) (scalar_number h) (by simp)
  · simp

theorem payJson_good {p : Pay} (h : (p.amount : Int).natAbs < 10 ^ 20) (hi : CStr p.invoice) (hd : ∀ s ∈ p.id, CStr s) :
    Good (payJson p) ∧ height (payJson p) ≤ 1 := by
  have := flat_pay h hi hd
  constructor
  · simp only [payJson, Good]; exact (goodM_iff _).2 fun q hq => ⟨(this q hq).1, (this q hq).2.1⟩
  · simp only [payJson, height]
    have := heightM_le (k := 0) fun q hq => by rw [(this q hq).2.2]; omega
    omega

theorem pays_back {l : List Pay} (hl : ∀ p ∈ l, (p.amount : Int).natAbs < 10 ^ 20 ∧ CStr p.invoice ∧ ∀ s ∈ p.id, CStr s) :
    parse (print false 0 (.obj [(c!"invoices", .arr (l.map payJson))])) = some (.obj [(c!"invoices", .arr (l.map payJson))]) := by
  refine print_back ?_ ?_
  · intro p hp
    simp only [List.mem_singleton] at hp
    subst hp
    refine ⟨(by decide : CStr (c!"invoices")), ?_⟩
    simp only [Good]
    refine (goodL_iff _).2 fun j hj => ?_
    obtain ⟨q, hq, rfl⟩ := List.mem_map.1 hj
    exact (payJson_good (hl q hq).1 (hl q hq).2.1 (hl q hq).2.2).1
  · intro p hp
    simp only [List.mem_singleton] at hp
    subst hp
    simp only [height]
    have : heightL (l.map payJson) ≤ 1 := heightL_le fun j hj => by
      obtain ⟨q, hq, rfl⟩ := List.mem_map.1 hj
      exact (payJson_good (hl q hq).1 (hl q hq).2.1 (hl q hq).2.2).2
    omega

/-- C99 for `multi_pay_invoice`: the payments in order. -/
theorem C99_multi_partial (td : Int → Int) (fr : Int → Bytes) {l : List Pay} (h : l ≠ [])
    (hl : ∀ p ∈ l, Exact p.amount ∧ CStr p.invoice ∧ ∀ s ∈ p.id, CStr s) :
    ∃ out, multiPay td fr l = .ok out ∧ parse out = some (.obj [(c!"invoices", .arr (l.map payJson))]) := by
  unfold multiPay
  rw [if_neg h]
  have e : l.map (payTree td fr) = l.map payJson := by
    apply List.map_congr_left
    intro p hp
    unfold payTree payJson
    rw [strField_eq, numTok_small td fr (hl p hp).1]
    rfl
  rw [e]
  exact ⟨_, rfl, pays_back fun p hp => ⟨by have := (hl p hp).1; unfold Exact at this; omega, (hl p hp).2⟩⟩

example : parse (payInvoice id (fun _ => []) (c!"lnbc1\"x") (some 21)) =
    some (.obj [(c!"invoice", .str (c!"lnbc1\"x")), (c!"amount", .num (c!"21"))]) := by decide +kernel

/-- C99 fails for large amounts: doubles do not tell 2^53 and 2^53 + 1 apart, so two different amounts give the same
request. -/
theorem C99_large_refuted (td : Int → Int) (fr : Int → Bytes) (h : td (2 ^ 53 + 1) = td (2 ^ 53)) :
    payInvoice td fr (c!"lnbc1") (some (2 ^ 53)) = payInvoice td fr (c!"lnbc1") (some (2 ^ 53 + 1)) := by
  have e1 : numTok td fr ((2 ^ 53 : Nat) : Int) = fr (td (2 ^ 53)) := by
    unfold numTok; rw [if_neg (by decide)]; rfl
  have e2 : numTok td fr ((2 ^ 53 + 1 : Nat) : Int) = fr (td (2 ^ 53)) := by
    unfold numTok; rw [if_neg (by decide), ← h]; rfl
  unfold payInvoice
  simp only [Option.map_some, numField, e1, e2]

/-! ## C100 -/

theorem printAll_fits : ∀ (ts : List Bytes) (w : Wr), w.buf.length = w.pos → w.pos + ts.flatten.length < w.size →
    printAll w ts = .ok ⟨w.size, w.buf ++ ts.flatten, w.pos + ts.flatten.length⟩ := by
  intro ts
  induction ts with
  | nil => intro w _ _; obtain ⟨a, b, c⟩ := w; simp [printAll]
  | cons t ts ih =>
    intro w hb hl
    obtain ⟨n, b, p⟩ := w
    simp only [List.flatten_cons, List.length_append] at hl hb ⊢
    simp only [printAll, Wr.printf]
    rw [if_neg (by omega), if_neg (by omega)]
    simp only [Res.bind_ok]
    rw [List.take_of_length_le (l := b) (by omega), List.take_of_length_le (l := t) (by omega), ih _ (by simp [hb]) (by simp only; omega)]
    simp [Nat.add_assoc]

theorem printed_fits {size : Nat} {ts : List Bytes} (h : ts.flatten.length < size) : printed size ts = .ok ts.flatten := by
  unfold printed
  rw [printAll_fits ts ⟨size, [], 0⟩ rfl (by simpa using h)]
  simp

theorem printAll_pos : ∀ (ts : List Bytes) (w w' : Wr), printAll w ts = .ok w' →
    w'.size = w.size ∧ w'.pos = w.pos + ts.flatten.length := by
  intro ts
  induction ts with
  | nil => intro w w' h; simp only [printAll, Res.ok.injEq] at h; subst h; simp
  | cons t ts ih =>
    intro w w' h
    simp only [printAll] at h
    obtain ⟨w1, h1, h2⟩ := Res.bind_eq_ok.1 h
    obtain ⟨e1, e2⟩ := ih w1 w' h2
    have : w1.size = w.size ∧ w1.pos = w.pos + t.length := by
      unfold Wr.printf at h1
      split at h1
      · simp at h1
      · split at h1 <;> (simp only [Res.ok.injEq] at h1; subst h1; simp)
    simp only [List.flatten_cons, List.length_append]
    omega

theorem printAll_noerr : ∀ (ts : List Bytes) (w : Wr) (e : Err), printAll w ts ≠ .err e := by
  intro ts
  induction ts with
  | nil => intro w e h; simp [printAll] at h
  | cons t ts ih =>
    intro w e h
    simp only [printAll] at h
    cases hp : w.printf t with
    | ok w1 => rw [hp] at h; exact ih w1 e h
    | ub => rw [hp] at h; simp at h
    | err x =>
      unfold Wr.printf at hp
      split at hp
      · simp at hp
      · split at hp <;> simp at hp

theorem printAll_append (a b : List Bytes) (w : Wr) : printAll w (a ++ b) = (printAll w a >>= fun w1 => printAll w1 b) := by
  induction a generalizing w with
  | nil => simp [printAll]
  | cons t a ih =>
    simp only [List.cons_append, printAll, Res.bind_assoc]
    congr 1
    funext w1
    exact ih w1

/-- Printing goes on behind the end of the buffer. -/
theorem printed_ub {size : Nat} {a b : List Bytes} (hb : b ≠ []) (h : size < a.flatten.length) : printed size (a ++ b) = .ub := by
  unfold printed
  rw [printAll_append]
  cases hw : printAll ⟨size, [], 0⟩ a with
  | err e => exact absurd hw (printAll_noerr a _ e)
  | ub => rfl
  | ok w =>
    obtain ⟨e1, e2⟩ := printAll_pos a _ w hw
    simp only [Nat.zero_add] at e1 e2
    cases b with
    | nil => exact absurd rfl hb
    | cons t b =>
      simp only [Res.bind_ok, printAll, Wr.printf]
      rw [if_pos (by omega)]
      rfl

theorem plain_table : ∀ n < 256, (UInt8.ofNat n ≠ 0x22 ∧ UInt8.ofNat n ≠ 0x5c ∧ 0x20 ≤ n) →
    escChar (UInt8.ofNat n) = [UInt8.ofNat n] ∧ escChar47 (UInt8.ofNat n) = [UInt8.ofNat n] := by decide +kernel

theorem plain_char {c : UInt8} (h : c ≠ 0x22 ∧ c ≠ 0x5c ∧ 0x20 ≤ c.toNat) : escChar c = [c] ∧ escChar47 c = [c] := by
  have := plain_table c.toNat c.toNat_lt
  rw [UInt8.ofNat_toNat] at this
  exact this h

theorem escape_plain {s : Bytes} (h : Plain s) : escape s = s := by
  induction s with
  | nil => rfl
  | cons c s ih =>
    show escChar c ++ escape s = c :: s
    rw [(plain_char (h c (by simp))).1, ih fun d hd => h d (by simp [hd])]
    rfl

/-- A notification as in `C101_long_refuted`. -/
example : ∃ type : Bytes, CStr type ∧
    61440 < (print false 0 (.obj [(c!"notification_type", .str type), (c!"notification", .obj [])])).length ∧
    (print false 0 (.obj [(c!"notification_type", .str type), (c!"notification", .obj [])])).length ≤ 65535 := by
  refine ⟨List.replicate 62000 0x61, fun h => absurd (List.eq_of_mem_replicate h) (by decide), ?_⟩
  have hp : Spec.Plain (List.replicate 62000 0x61) := by
    intro c hc
    rw [List.eq_of_mem_replicate hc]
    decide
  have e1 : (escape (List.replicate 62000 0x61)).length = 62000 := by rw [escape_plain hp, List.length_replicate]
  have e2 : (print false 0 (.obj [(c!"notification_type", .str (List.replicate 62000 0x61)), (c!"notification", .obj [])])).length =
      62042 := by
    simp only [print, printMembers, quoted, List.length_append, List.length_cons, List.length_nil, e1]
    rw [show (escape (c!"notification_type")).length = 17 by decide +kernel, show (escape (c!"notification")).length = 12 by decide +kernel]
    rfl
  rw [e2]
  decide

theorem plain_cstr {s : Bytes} (h : Plain s) : CStr s := by
  intro h0
  have := (h 0 h0).2.2
  exact absurd this (by decide)

theorem escLoop_plain {room : Nat} : ∀ {s : Bytes} {pos : Nat}, Plain s → pos + s.length ≤ room → escLoop room pos s = s := by
  intro s
  induction s with
  | nil => intro pos _ _; rfl
  | cons c s ih =>
    intro pos h hl
    simp only [List.length_cons] at hl
    unfold escLoop
    rw [(plain_char (h c (by simp))).2]
    simp only [List.length_singleton]
    rw [if_neg (by omega), ih (fun d hd => h d (by simp [hd])) (by omega)]
    rfl

theorem jsonEscape_plain {s : Bytes} {n : Nat} (h : Plain s) (hl : s.length < n) : jsonEscape n s = some s := by
  unfold jsonEscape
  rw [if_neg (by omega), escLoop_plain h (by omega)]

/-- `"name":value`. -/
def member (p : Bytes × Json) : Bytes := quoted p.1 ++ 0x3a :: print false 1 p.2

theorem members_text : ∀ (m : List (Bytes × Json)), printMembers false 1 m = (commas (m.map member)).flatten
  | [] => rfl
  | [(k, j)] => by simp [printMembers, commas, member]
  | (k, j) :: q :: m => by
    have ih := members_text (q :: m)
    rw [printMembers, ih]
    simp [commas, member]

theorem obj_text (m : List (Bytes × Json)) : print false 0 (.obj m) = 0x7b :: ((commas (m.map member)).flatten ++ [0x7d]) := by
  simp [print, members_text]

/-- C100: without cJSON, `lookup_invoice` parameters are right for texts that need no escaping and fit into the buffer.
Missing: other texts (`C100_lookup_quote_refuted`, `C100_lookup_overflow_refuted`). -/
theorem C100_lookup_partial {hash invoice : Option Bytes} (h : hash ≠ none ∨ invoice ≠ none) (hh : ∀ s ∈ hash, Plain s)
    (hi : ∀ s ∈ invoice, Plain s) (hl : (hash.getD []).length + (invoice.getD []).length ≤ 4000) :
    ∃ out, lookupInvoicePlain hash invoice = .ok out ∧ parse out =
      some (.obj (opt (c!"payment_hash") .str hash ++ opt (c!"invoice") .str invoice)) := by
  unfold lookupInvoicePlain
  rw [if_neg (by rintro ⟨a, b⟩; rcases h with h | h <;> contradiction)]
  have e : (c!"{" :: (commas (piece (hash.map fun s => c!"\"payment_hash\":\"" ++ s ++ c!"\"") ++
    piece (invoice.map fun s => c!"\"invoice\":\"" ++ s ++ c!"\"")) ++ [c!"}"])).flatten =
    print false 0 (.obj (opt (c!"payment_hash") .str hash ++ opt (c!"invoice") .str invoice)) := by
    rw [obj_text]
    have e1 : piece (hash.map fun s => c!"\"payment_hash\":\"" ++ s ++ c!"\"") = (opt (c!"payment_hash") .str hash).map member := by
      cases hash with
      | none => rfl
      | some s => simp [piece, opt, member, print, quoted, escape_plain (hh s rfl), show escape (c!"payment_hash") = c!"payment_hash" by decide]
    have e2 : piece (invoice.map fun s => c!"\"invoice\":\"" ++ s ++ c!"\"") = (opt (c!"invoice") .str invoice).map member := by
      cases invoice with
      | none => rfl
      | some s => simp [piece, opt, member, print, quoted, escape_plain (hi s rfl), show escape (c!"invoice") = c!"invoice" by decide]
    rw [e1, e2]
    simp
  rw [printed_fits, e]
  · exact ⟨_, rfl, flat_back (flat_append (flat_opt (by decide) fun s hs => scalar_str (plain_cstr (hh s hs)))
      (flat_opt (by decide) fun s hs => scalar_str (plain_cstr (hi s hs))))⟩
  · cases hash <;> cases invoice <;> simp [piece, commas] at hl ⊢ <;> omega

/-- C100 fails for a text with a quote: it adds members. -/
theorem C100_lookup_quote_refuted : ∃ h out, CStr h ∧ lookupInvoicePlain (some h) none = .ok out ∧ parse out =
    some (.obj [(c!"payment_hash", .str (c!"x")), (c!"invoice", .str (c!"y"))]) :=
  ⟨c!"x\",\"invoice\":\"y", c!"{\"payment_hash\":\"x\",\"invoice\":\"y\"}", by decide, by decide +kernel, by decide +kernel⟩

/-- C100 fails for long texts: the terminating brace is written behind the buffer. -/
theorem C100_lookup_overflow_refuted (h : Bytes) (i : Option Bytes) (hl : 4096 ≤ h.length) :
    lookupInvoicePlain (some h) i = .ub := by
  unfold lookupInvoicePlain
  rw [if_neg (by simp)]
  have : ∃ b, b ≠ [] ∧ (c!"{" :: (commas (piece ((some h).map fun s => c!"\"payment_hash\":\"" ++ s ++ c!"\"") ++
    piece (i.map fun s => c!"\"invoice\":\"" ++ s ++ c!"\"")) ++ [c!"}"])) =
      [c!"{", c!"\"payment_hash\":\"" ++ h ++ c!"\""] ++ b := by
    cases i with
    | none => exact ⟨[c!"}"], by simp, rfl⟩
    | some s => exact ⟨[c!"," ++ (c!"\"invoice\":\"" ++ s ++ c!"\""), c!"}"], by simp, rfl⟩
  obtain ⟨b, hb, e⟩ := this
  rw [e]
  exact printed_ub hb (by simp; omega)

/-- C100: `pay_invoice` without cJSON, for invoices that need no escaping and fit. -/
theorem C100_pay_invoice_partial {invoice : Bytes} {amount : Option Nat} (hi : Plain invoice) (hl : invoice.length ≤ 4000)
    (ha : ∀ n ∈ amount, n < 2 ^ 64) : parse (payInvoicePlain invoice amount) =
      some (.obj ((c!"invoice", .str invoice) :: opt (c!"amount") (fun n => number (n : Nat)) amount)) := by
  have e : payInvoicePlain invoice amount = print false 0 (.obj ((c!"invoice", .str invoice) :: opt (c!"amount") (fun n => number (n : Nat)) amount)) := by
    unfold payInvoicePlain
    rw [jsonEscape_plain hi (by omega), obj_text]
    cases amount with
    | none =>
      rw [List.take_of_length_le (by simp; omega)]
      simp [opt, commas, member, print, quoted, escape_plain hi, show escape (c!"invoice") = c!"invoice" by decide]
    | some n =>
      have := Num.decNat_length (n := n) (k := 20) (by omega) (by have := ha n rfl; omega)
      rw [List.take_of_length_le (by simp; omega)]
      simp [opt, commas, member, print, quoted, escape_plain hi, number, decInt_nat, show escape (c!"invoice") = c!"invoice" by decide,
        show escape (c!"amount") = c!"amount" by decide]
  rw [e]
  exact flat_back (flat_cons (by decide) (scalar_str (plain_cstr hi)) (flat_opt (by decide) fun n hn => scalar_number (by have := ha n hn; omega)))

/-- C100 fails for a description and a description hash of 2047 characters each: each fits into its own buffer, but
not both into the result; the text is written behind its end. -/
theorem C100_make_overflow_refuted (amount : Nat) (d h : Bytes) (e : Option Nat) (h0 : amount ≠ 0) (hd : Plain d) (hh : Plain h)
    (ld : d.length = 2047) (lh : h.length = 2047) : makeInvoicePlain amount (some d) (some h) e = .ub := by
  unfold makeInvoicePlain
  rw [if_neg h0]
  simp only [Option.map_some, jsonEscape_plain hd (show d.length < 2048 by omega), jsonEscape_plain hh (show h.length < 2048 by omega),
    Option.getD_some, piece, Option.toList_some]
  rw [show ∀ (a b c : Bytes) (x : List Bytes), a :: ([b] ++ [c] ++ x ++ [c!"}"]) = [a, b, c] ++ (x ++ [c!"}"]) by intros; simp]
  exact printed_ub (by simp) (by simp; omega)

example : ∃ d h : Bytes, Plain d ∧ Plain h ∧ d.length = 2047 ∧ h.length = 2047 :=
  ⟨List.replicate 2047 0x61, List.replicate 2047 0x62, by intro c hc; rw [List.eq_of_mem_replicate hc]; decide,
    by intro c hc; rw [List.eq_of_mem_replicate hc]; decide, List.length_replicate, List.length_replicate⟩

/-- C100 fails for `pay_keysend` with a long key text. -/
theorem C100_keysend_overflow_refuted (amount : Nat) (pubkey : Bytes) (p : Option Bytes) (t : List Bytes) (h0 : amount ≠ 0)
    (hl : 8192 ≤ pubkey.length) : payKeysendPlain amount pubkey p t = .ub := by
  unfold payKeysendPlain
  rw [if_neg h0]
  rw [← List.singleton_append]
  exact printed_ub (by simp) (by simp; omega)

/-- C100 fails for `multi_pay_invoice` with a long invoice. -/
theorem C100_multi_overflow_refuted (i : Bytes) (n : Nat) (l : List Pay) (hl : 16384 ≤ i.length) :
    multiPayPlain (⟨none, i, n⟩ :: l) = .ub := by
  unfold multiPayPlain
  rw [if_neg (by simp)]
  simp only [payPieces, piece, Option.map_none, Option.toList_none, if_true, List.nil_append, List.append_nil]
  rw [show ∀ (a b c : Bytes) (x y z : List Bytes), a :: ([b] ++ [c] ++ x ++ y ++ z ++ [c!"]}"]) = [a, b, c] ++ (x ++ y ++ z ++ [c!"]}"]) by
    intros; simp]
  exact printed_ub (by simp) (by simp; omega)

/-- C100 fails for `list_transactions` with a long type. -/
theorem C100_list_overflow_refuted (t : Bytes) (hl : 4096 ≤ t.length) : listTxPlain none none none none none (some t) = .ub := by
  unfold listTxPlain
  have : (c!"{" :: (commas (piece (none.map fun n => c!"\"from\":" ++ Num.decInt n) ++
    piece (none.map fun n => c!"\"until\":" ++ Num.decInt n) ++
    piece (none.map fun n => c!"\"limit\":" ++ Num.decNat n) ++
    piece (none.map fun n => c!"\"offset\":" ++ Num.decNat n) ++
    piece (none.map fun (b : Bool) => c!"\"unpaid\":" ++ (if b then c!"true" else c!"false")) ++
    piece ((some t).map fun s => c!"\"type\":\"" ++ s ++ c!"\"")) ++ [c!"}"])) = [c!"{", c!"\"type\":\"" ++ t ++ c!"\""] ++ [c!"}"] := rfl
  rw [this]
  exact printed_ub (by simp) (by simp; omega)

end Nostr.Nip47.Props
