import Verif.Zap.Model
import Verif.Zap.Spec
import Verif.Event.Props
import Verif.Nip10.Props
import Verif.Hex.Lemmas
import Verif.Bech32.Bip173

/-! # Property theorems: C68, C69, C70, C113, C114 -/

namespace Nostr.Zap.Props
open Nostr Nostr.Event Nostr.Zap Nostr.Zap.Spec
open Nostr.Nip10.Props (addTag_ok)

/-! ## Tags -/

theorem noTag_iff {name : Bytes} {t : List Bytes} : (∀ w r, t ≠ name :: w :: r) ↔ t.length < 2 ∨ t.head? ≠ some name := by
  match t with
  | [] => simp
  | [a] => simp
  | a :: b :: r =>
    simp only [List.length_cons, List.head?_cons, ne_eq, Option.some.injEq]
    constructor
    · intro h; right; intro e; exact h b r (by rw [e])
    · rintro (h | h) w r' e
      · omega
      · simp only [List.cons.injEq] at e; exact h e.1

/-- What a scan stores: the last invoice, and every description is a readable event, the last one stored. -/
theorem scan_spec (P : Plat) (b : Build) (cfg : Option Config.Config) : ∀ (tags : List (List Bytes)) (r0 r : Receipt),
    scanTags P b cfg tags r0 = .ok r →
    ((r.bolt11 = r0.bolt11 ∧ ∀ t ∈ tags, ∀ w x, t ≠ c!"bolt11" :: w :: x) ∨
      ∃ before v rest after, tags = before ++ (c!"bolt11" :: v :: rest) :: after ∧ r.bolt11 = some v ∧
        ∀ t ∈ after, ∀ w x, t ≠ c!"bolt11" :: w :: x) ∧
    ((r.request = r0.request ∧ ∀ t ∈ tags, ∀ w x, t ≠ c!"description" :: w :: x) ∨
      ∃ before v rest after q, tags = before ++ (c!"description" :: v :: rest) :: after ∧ r.request = some q ∧
        fromJson P b cfg v = .ok q ∧ ∀ t ∈ after, ∀ w x, t ≠ c!"description" :: w :: x) := by
  intro tags
  induction tags with
  | nil => intro r0 r h; cases h; simp
  | cons t ts ih =>
    intro r0 r h
    have lift : ∀ (name : Bytes) (S : Prop) (Q : Bytes → Prop), (∀ w x, t ≠ name :: w :: x) →
        ((S ∧ ∀ t ∈ ts, ∀ w x, t ≠ name :: w :: x) ∨ ∃ before v rest after, ts = before ++ (name :: v :: rest) :: after ∧ Q v ∧
          ∀ t ∈ after, ∀ w x, t ≠ name :: w :: x) →
        ((S ∧ ∀ u ∈ t :: ts, ∀ w x, u ≠ name :: w :: x) ∨ ∃ before v rest after, t :: ts = before ++ (name :: v :: rest) :: after ∧ Q v ∧
          ∀ t ∈ after, ∀ w x, t ≠ name :: w :: x) := by
      intro name S Q hne h
      rcases h with ⟨hS, h⟩ | ⟨before, v, rest, after, h1, h2, h3⟩
      · left
        refine ⟨hS, ?_⟩
        intro u hu
        rcases List.mem_cons.1 hu with rfl | hu
        · exact hne
        · exact h u hu
      · exact .inr ⟨t :: before, v, rest, after, by rw [h1]; rfl, h2, h3⟩
    have liftB : ∀ S : Prop, (∀ w x, t ≠ c!"bolt11" :: w :: x) →
        ((S ∧ ∀ t ∈ ts, ∀ w x, t ≠ c!"bolt11" :: w :: x) ∨ ∃ before v rest after, ts = before ++ (c!"bolt11" :: v :: rest) :: after ∧
          r.bolt11 = some v ∧ ∀ t ∈ after, ∀ w x, t ≠ c!"bolt11" :: w :: x) →
        ((S ∧ ∀ u ∈ t :: ts, ∀ w x, u ≠ c!"bolt11" :: w :: x) ∨ ∃ before v rest after, t :: ts = before ++ (c!"bolt11" :: v :: rest) :: after ∧
          r.bolt11 = some v ∧ ∀ t ∈ after, ∀ w x, t ≠ c!"bolt11" :: w :: x) :=
      fun S => lift (c!"bolt11") S (fun v => r.bolt11 = some v)
    have liftD : ∀ S : Prop, (∀ w x, t ≠ c!"description" :: w :: x) →
        ((S ∧ ∀ t ∈ ts, ∀ w x, t ≠ c!"description" :: w :: x) ∨ ∃ before v rest after q, ts = before ++ (c!"description" :: v :: rest) :: after ∧
          r.request = some q ∧ fromJson P b cfg v = .ok q ∧ ∀ t ∈ after, ∀ w x, t ≠ c!"description" :: w :: x) →
        ((S ∧ ∀ u ∈ t :: ts, ∀ w x, u ≠ c!"description" :: w :: x) ∨ ∃ before v rest after q, t :: ts = before ++ (c!"description" :: v :: rest) :: after ∧
          r.request = some q ∧ fromJson P b cfg v = .ok q ∧ ∀ t ∈ after, ∀ w x, t ≠ c!"description" :: w :: x) := by
      intro S hne h
      rcases h with ⟨hS, h⟩ | ⟨before, v, rest, after, q, h1, h2, h3, h4⟩
      · left
        refine ⟨hS, ?_⟩
        intro u hu
        rcases List.mem_cons.1 hu with rfl | hu
        · exact hne
        · exact h u hu
      · exact .inr ⟨t :: before, v, rest, after, q, by rw [h1]; rfl, h2, h3, h4⟩
    unfold scanTags at h
    split at h
    · rename_i name value x
      split at h
      · rename_i hn
        subst hn
        obtain ⟨h1, h2⟩ := ih _ _ h
        refine ⟨?_, liftD _ (by intro w y e; simp only [List.cons.injEq] at e; exact absurd e.1 (by decide)) h2⟩
        rcases h1 with ⟨h1, h1'⟩ | ⟨before, v, rest, after, g1, g2, g3⟩
        · exact .inr ⟨[], value, x, ts, rfl, h1, h1'⟩
        · exact .inr ⟨(c!"bolt11" :: value :: x) :: before, v, rest, after, by rw [g1]; rfl, g2, g3⟩
      · rename_i hn1
        split at h
        · rename_i hn2
          obtain ⟨h1, h2⟩ := ih _ _ h
          have hb : (if value.length ≤ 64 then { r0 with preimage := some value } else r0).bolt11 = r0.bolt11 := by
            split <;> rfl
          have hq : (if value.length ≤ 64 then { r0 with preimage := some value } else r0).request = r0.request := by
            split <;> rfl
          rw [hb] at h1
          rw [hq] at h2
          subst hn2
          exact ⟨liftB _ (by intro w y e; simp only [List.cons.injEq] at e; exact absurd e.1 (by decide)) h1,
            liftD _ (by intro w y e; simp only [List.cons.injEq] at e; exact absurd e.1 (by decide)) h2⟩
        · split at h
          · rename_i hn3
            rw [Res.bind_eq_ok] at h
            obtain ⟨q, hq, h⟩ := h
            obtain ⟨h1, h2⟩ := ih _ _ h
            subst hn3
            refine ⟨liftB _ (by intro w y e; simp only [List.cons.injEq] at e; exact absurd e.1 (by decide)) h1, ?_⟩
            rcases h2 with ⟨h2, h2'⟩ | ⟨before, v, rest, after, q', g1, g2, g3, g4⟩
            · exact .inr ⟨[], value, x, ts, q, rfl, h2, hq, h2'⟩
            · exact .inr ⟨(c!"description" :: value :: x) :: before, v, rest, after, q', by rw [g1]; rfl, g2, g3, g4⟩
          · rename_i hn3
            obtain ⟨h1, h2⟩ := ih _ _ h
            exact ⟨liftB _ (by intro w y e; simp only [List.cons.injEq] at e; exact hn1 e.1) h1,
              liftD _ (by intro w y e; simp only [List.cons.injEq] at e; exact hn3 e.1) h2⟩
    · rename_i hno
      obtain ⟨h1, h2⟩ := ih _ _ h
      exact ⟨liftB _ (fun w y e => hno _ _ _ e) h1, liftD _ (fun w y e => hno _ _ _ e) h2⟩

/-- The last tag of a name is unique. -/
theorem lastTag_unique {name : Bytes} {tags b1 a1 b2 a2 : List (List Bytes)} {v1 v2 : Bytes} {r1 r2 : List Bytes}
    (h1 : tags = b1 ++ (name :: v1 :: r1) :: a1) (n1 : ∀ t ∈ a1, ∀ w x, t ≠ name :: w :: x)
    (h2 : tags = b2 ++ (name :: v2 :: r2) :: a2) (n2 : ∀ t ∈ a2, ∀ w x, t ≠ name :: w :: x) : v1 = v2 := by
  rw [h1] at h2
  rcases List.append_eq_append_iff.1 h2 with ⟨l, e1, e2⟩ | ⟨l, e1, e2⟩
  · cases l with
    | nil =>
      simp only [List.nil_append, List.cons.injEq] at e2
      exact e2.1.2.1
    | cons y l =>
      simp only [List.cons_append, List.cons.injEq] at e2
      exact absurd rfl (n1 (name :: v2 :: r2) (by rw [e2.2]; simp) v2 r2)
  · cases l with
    | nil =>
      simp only [List.nil_append, List.cons.injEq] at e2
      exact e2.1.2.1.symm
    | cons y l =>
      simp only [List.cons_append, List.cons.injEq] at e2
      exact absurd rfl (n2 (name :: v1 :: r1) (by rw [e2.2]; simp) v1 r1)

theorem requestAmount_of : ∀ (before : List (List Bytes)) (v : Bytes) (rest : List Bytes) (after : List (List Bytes)),
    (∀ t ∈ before, ∀ w r, t ≠ c!"amount" :: w :: r) →
    requestAmount (before ++ (c!"amount" :: v :: rest) :: after) = (Num.strtoul v).1 := by
  intro before
  induction before with
  | nil => intro v rest after _; simp [requestAmount]
  | cons t ts ih =>
    intro v rest after h
    rw [List.cons_append]
    unfold requestAmount
    split
    · rename_i name value x
      rw [if_neg]
      · exact ih v rest after (fun u hu => h u (by simp [hu]))
      · intro e
        exact h (name :: value :: x) (by simp) value x (by rw [e])
    · exact ih v rest after (fun u hu => h u (by simp [hu]))

theorem requestAmount_none : ∀ (tags : List (List Bytes)), (∀ t ∈ tags, ∀ w r, t ≠ c!"amount" :: w :: r) → requestAmount tags = 0 := by
  intro tags
  induction tags with
  | nil => intro _; rfl
  | cons t ts ih =>
    intro h
    unfold requestAmount
    split
    · rename_i name value x
      rw [if_neg]
      · exact ih (fun u hu => h u (by simp [hu]))
      · intro e
        exact h (name :: value :: x) (by simp) value x (by rw [e])
    · exact ih (fun u hu => h u (by simp [hu]))

theorem amount_dec {m : Nat} (h : m < 2 ^ 64) : (Num.strtoul (Num.decNat m)).1 = m := by
  have := Num.strtoul_decNat (n := m) (rest := []) h (by simp)
  rw [List.append_nil] at this
  rw [this]

/-! ## C69 -/

theorem strstr_head (needle s : Bytes) (h : needle ≠ []) : strstr needle (needle ++ s) = some (needle ++ s) := by
  cases needle with
  | nil => exact absurd rfl h
  | cons c t =>
    rw [List.cons_append]
    unfold strstr
    rw [if_pos]
    rw [← List.cons_append, List.take_left]

theorem amount_unit (n : Nat) (u : Unit') (data : Bytes) (hn : n < 2 ^ 64) :
    amountOf (c!"lnbc" ++ Num.decNat n ++ [u.letter] ++ c!"1" ++ data) = some (n * u.tenths / 10 % 2 ^ 64) := by
  have hr : Num.strtoul (Num.decNat n ++ ([u.letter] ++ c!"1" ++ data)) = (n, [u.letter] ++ c!"1" ++ data) :=
    Num.strtoul_decNat hn (by
      intro c hc
      cases u <;> simp [Unit'.letter] at hc <;> subst hc <;> decide)
  have hs : c!"lnbc" ++ Num.decNat n ++ [u.letter] ++ c!"1" ++ data = c!"lnbc" ++ (Num.decNat n ++ ([u.letter] ++ c!"1" ++ data)) := by
    simp only [List.append_assoc]
  have hp := Num.decNat_pos n
  unfold amountOf
  rw [hs, strstr_head _ _ (by decide)]
  have hd : (c!"lnbc" ++ (Num.decNat n ++ ([u.letter] ++ c!"1" ++ data))).drop 4 = Num.decNat n ++ ([u.letter] ++ c!"1" ++ data) :=
    List.drop_left' rfl
  simp only [hd, hr]
  rw [if_pos (by simp only [List.length_append]; omega)]
  cases u <;> simp [Unit'.letter, Unit'.tenths, lower] <;> omega

/-- **C69**, the part that holds: for an invoice text with a multiplier letter whose amount and written number
fit 64 bits, the reported amount is the amount of the invoice in millisatoshi, whatever other tags the receipt
has. -/
theorem C69_amount_partial (P : Plat) (b : Build) (cfg : Option Config.Config) (e : Event) (v : Bytes) (n : Nat) (u : Unit')
    (data : Bytes) (msat : Nat) (hv : v = c!"lnbc" ++ Num.decNat n ++ [u.letter] ++ c!"1" ++ data) (hm : n * u.tenths = msat * 10)
    (hn : n < 2 ^ 64) (h64 : msat < 2 ^ 64) (ht : LastTag e (c!"bolt11") v) (r : Receipt) (a : Option Nat)
    (h : parseReceipt P b cfg e = .ok (r, a)) : a = some msat ∧ r.bolt11 = some v := by
  unfold parseReceipt at h
  split at h
  · cases h
  · rw [Res.bind_eq_ok] at h
    obtain ⟨r', h1, h⟩ := h
    simp only [Res.ok.injEq, Prod.mk.injEq] at h
    obtain ⟨rfl, rfl⟩ := h
    obtain ⟨before, rest, after, t1, t2⟩ := ht
    rcases (scan_spec P b cfg _ _ _ h1).1 with ⟨_, h2⟩ | ⟨before', v', rest', after', g1, g2, g3⟩
    · exact absurd rfl (h2 (c!"bolt11" :: v :: rest) (by rw [t1]; simp) v rest)
    · have := lastTag_unique t1 t2 g1 g3
      subst this
      rw [g2, Option.bind_some, hv, amount_unit n u data hn, hm, Nat.mul_div_cancel _ (by decide), Nat.mod_eq_of_lt h64]
      exact ⟨rfl, rfl⟩

/-- **C69** (kind): only events of kind 9735 are read as receipts. -/
theorem C69_only_receipts {P : Plat} {b : Build} {cfg : Option Config.Config} {e : Event} {x : Receipt × Option Nat}
    (h : parseReceipt P b cfg e = .ok x) : e.kind = 9735 := by
  unfold parseReceipt at h
  split at h
  · cases h
  · rename_i hk; exact Decidable.not_not.1 hk

/-- A receipt over 20 micro-bitcoin: 2 000 000 millisatoshi. -/
example : parseReceipt ⟨fun _ => 0, false⟩ .plain none
    { zero with kind := 9735, tags := [[c!"p", c!"x"], [c!"bolt11", c!"lnbc20u1pdata"]] } =
    .ok (⟨some (c!"lnbc20u1pdata"), none, none⟩, some 2000000) := by decide +kernel
example : LastTag { zero with kind := 9735, tags := [[c!"p", c!"x"], [c!"bolt11", c!"lnbc20u1pdata"]] } (c!"bolt11") (c!"lnbc20u1pdata") :=
  ⟨[[c!"p", c!"x"]], [], [], rfl, by simp⟩

/-- **C69** is false for invoices without a multiplier letter: the separator `1` is read as a digit of the
amount, so an invoice over one bitcoin (10¹¹ millisatoshi) is reported as one millisatoshi. -/
theorem C69_no_unit_refuted : ∃ v msat, Invoice v msat ∧ msat = 10 ^ 11 ∧ ∀ P b cfg e, e.kind = 9735 → e.tags = [[c!"bolt11", v]] →
    parseReceipt P b cfg e = .ok (⟨some v, none, none⟩, some 1) := by
  refine ⟨c!"lnbc11pvjluez", 10 ^ 11, ⟨1, c!"pvjluez", .inr ⟨by decide +kernel, by decide⟩⟩, rfl, ?_⟩
  intro P b cfg e hk ht
  unfold parseReceipt
  rw [if_neg (by simp [hk]), ht]
  show Res.ok (_, amountOf (c!"lnbc11pvjluez")) = _
  have : amountOf (c!"lnbc11pvjluez") = some 1 := by decide +kernel
  rw [this]

/-- **C69** is false for large amounts: 184467440738 milli-bitcoin are reported as 90448384 millisatoshi. -/
theorem C69_overflow_refuted : ∃ v msat, Invoice v msat ∧ msat = 18446744073800000000 ∧ ∀ P b cfg e, e.kind = 9735 → e.tags = [[c!"bolt11", v]] →
    parseReceipt P b cfg e = .ok (⟨some v, none, none⟩, some 90448384) := by
  refine ⟨c!"lnbc" ++ Num.decNat 184467440738 ++ [Unit'.milli.letter] ++ c!"1" ++ c!"pdata", _,
    ⟨184467440738, c!"pdata", .inl ⟨.milli, rfl, by decide⟩⟩, rfl, ?_⟩
  intro P b cfg e hk ht
  unfold parseReceipt
  rw [if_neg (by simp [hk]), ht]
  show Res.ok (_, amountOf (c!"lnbc" ++ Num.decNat 184467440738 ++ [Unit'.milli.letter] ++ c!"1" ++ c!"pdata")) = _
  rw [amount_unit _ _ _ (by decide)]
  rfl

/-! ## C68 -/

theorem keyLoop_length (lax : Bool) : ∀ (k : Nat) (s b : Bytes), Hex.keyLoop lax k s = .ok b → b.length = k := by
  intro k
  induction k with
  | zero => intro s b h; cases h; rfl
  | succ k ih =>
    intro s b h
    unfold Hex.keyLoop at h
    split at h
    · cases h
    · rw [Res.bind_eq_ok] at h
      obtain ⟨r, h1, h⟩ := h
      cases h
      rw [List.length_cons, ih _ _ h1]

theorem hexField_length {P : Plat} {root : Json.Json} {key : Bytes} {n : Nat} {old b : Bytes} (ho : old.length = n)
    (h : hexField P root key n old = .ok b) : b.length = n := by
  unfold hexField at h
  split at h
  · cases h; exact ho
  · split at h
    · cases h
    · rename_i hx
      cases h
      unfold hexToBytes at hx
      split at hx
      · cases hx
      · split at hx
        · rename_i hk
          cases hx
          exact keyLoop_length _ _ _ _ hk
        · cases hx

theorem addTags_id (cfg : Option Config.Config) : ∀ (js : List Json.Json) (e e' : Event), addTags cfg e js = .ok e' → e'.id = e.id := by
  intro js
  induction js with
  | nil => intro e e' h; cases h; rfl
  | cons j js ih =>
    intro e e' h
    unfold addTags at h
    split at h
    · split at h
      · rename_i h1
        have := addTag_ok h1
        rw [ih _ _ h, this]
      · cases h
      · cases h
    · exact ih _ _ h

/-- An event read from JSON has an id of 32 bytes. -/
theorem fromJson_id {P : Plat} {b : Build} {cfg : Option Config.Config} {s : Bytes} {q : Event}
    (h : fromJson P b cfg s = .ok q) : q.id.length = 32 := by
  unfold fromJson at h
  split at h
  · cases h
  · split at h
    · cases h
    · unfold fromTree at h
      obtain ⟨id, h1, h⟩ := Res.bind_eq_ok.1 h
      obtain ⟨pk, h2, h⟩ := Res.bind_eq_ok.1 h
      obtain ⟨ct, h3, h⟩ := Res.bind_eq_ok.1 h
      obtain ⟨e, h4, h⟩ := Res.bind_eq_ok.1 h
      obtain ⟨sig, h5, h⟩ := Res.bind_eq_ok.1 h
      cases h
      show e.id.length = 32
      have he : e.id = id := by
        unfold tagsField at h4
        split at h4
        · cases h4; rfl
        · split at h4
          · cases h4
          · exact addTags_id _ _ _ _ h4
      rw [he]
      exact hexField_length rfl h1

/-- **C68** (soundness): a receipt is accepted only if the kinds are right, its author is the given server key,
its id is the hash of its contents and its signature verifies, its last description is an event with the id of
the given request, and - when the request states an amount and the last invoice has one written with a
multiplier letter - the two amounts are equal. -/
theorem C68_sound (C : Crypto) (hC : Nostr.Event.Props.CryptoOK C) (P : Plat) (b : Build) (cfg : Option Config.Config)
    (receipt request : Event) (server : Bytes) (hr : receipt.id.length = 32) (hk : receipt.pubkey.length = 32)
    (hq : request.id.length = 32) (h : verifyZap C P b cfg receipt request server = .ok ()) :
    receipt.kind = 9735 ∧ request.kind = 9734 ∧ server = Hex.Spec.hexText receipt.pubkey ∧
    (∃ t, serialize b receipt = .ok t ∧ receipt.id = C.sha256 t) ∧ C.verify receipt.pubkey receipt.id receipt.sig = true ∧
    (∃ d q, LastTag receipt (c!"description") d ∧ fromJson P b cfg d = .ok q ∧ q.id = request.id) ∧
    (∀ n u data msat v m, LastTag receipt (c!"bolt11") v → v = c!"lnbc" ++ Num.decNat n ++ [Unit'.letter u] ++ c!"1" ++ data →
      n * u.tenths = msat * 10 → n < 2 ^ 64 → msat < 2 ^ 64 → 0 < msat →
      FirstTag request (c!"amount") (Num.decNat m) → m < 2 ^ 64 → 0 < m → m = msat) := by
  unfold verifyZap at h
  split at h
  · cases h
  rename_i hkind
  rw [Res.bind_eq_ok] at h
  obtain ⟨hex, hhex, h⟩ := h
  have hhex : hex = Hex.Spec.hexText receipt.pubkey := by
    simp only [Hex.keyToHex, Nat.lt_irrefl, if_false, Res.ok.injEq] at hhex
    rw [← hhex, Hex.hexEncode_eq]
  subst hhex
  split at h
  · cases h
  rename_i hserver
  rw [Res.bind_eq_ok] at h
  obtain ⟨p, hp, h⟩ := h
  have hlen : (Hex.Spec.hexText receipt.pubkey).length = 64 := by rw [Hex.hexText_length, hk]
  have hs : server = Hex.Spec.hexText receipt.pubkey := by
    have h64 : server.length = 64 := by
      apply Decidable.byContradiction; intro hne; exact hserver (.inl hne)
    have := (Hex.ctMemcmp_iff (by rw [hlen, h64])).1 (Decidable.not_not.1 fun hne => hserver (.inr hne))
    exact this.symm
  obtain ⟨r, a⟩ := p
  simp only at h
  split at h
  · cases h
  rename_i q hreq
  split at h
  · cases h
  rename_i hid
  split at h
  · cases h
  rename_i hamt
  have hk1 : receipt.kind = 9735 := by
    apply Decidable.byContradiction; intro hne; exact hkind (.inl hne)
  have hk2 : request.kind = 9734 := by
    apply Decidable.byContradiction; intro hne; exact hkind (.inr hne)
  obtain ⟨t, ht1, ht2, _, ht3⟩ := (Nostr.Event.Props.C19_verify_iff hC hr).1 h
  refine ⟨hk1, hk2, hs, ⟨t, ht1, ht2⟩, ht3, ?_, ?_⟩
  · have hp' := hp
    unfold parseReceipt at hp'
    rw [if_neg (by simp [hk1]), Res.bind_eq_ok] at hp'
    obtain ⟨r', h1, h2⟩ := hp'
    simp only [Res.ok.injEq, Prod.mk.injEq] at h2
    obtain ⟨rfl, _⟩ := h2
    rcases (scan_spec P b cfg _ _ _ h1).2 with ⟨g, _⟩ | ⟨before, v, rest, after, q', g1, g2, g3, g4⟩
    · rw [hreq] at g; cases g
    · rw [hreq] at g2
      cases g2
      exact ⟨v, q, ⟨before, rest, after, g1, g4⟩, g3,
        ((Hex.ctMemcmp_iff (by rw [hq, fromJson_id g3])).1 (Decidable.not_not.1 hid)).symm⟩
  · intro n u data msat v m hb hv hm hn h64 hpos hf hm64 hmpos
    obtain ⟨ha, _⟩ := C69_amount_partial P b cfg receipt v n u data msat hv hm hn h64 hb r a hp
    obtain ⟨before, rest, after, f1, f2⟩ := hf
    rw [f1, requestAmount_of _ _ _ _ f2, amount_dec hm64, ha] at hamt
    simp only [Option.getD_some] at hamt
    apply Decidable.byContradiction
    intro hne
    exact hamt ⟨hmpos, hpos, hne⟩

theorem scan_ok (P : Plat) (b : Build) (cfg : Option Config.Config) : ∀ (tags : List (List Bytes)) (r0 : Receipt),
    (∀ v rest, (c!"description" :: v :: rest) ∈ tags → ∃ q, fromJson P b cfg v = .ok q) → ∃ r, scanTags P b cfg tags r0 = .ok r := by
  intro tags
  induction tags with
  | nil => intro r0 _; exact ⟨r0, rfl⟩
  | cons t ts ih =>
    intro r0 h
    have ih' := fun r1 => ih r1 (fun v rest hm => h v rest (by simp [hm]))
    unfold scanTags
    split
    · rename_i name value x
      split
      · exact ih' _
      · split
        · exact ih' _
        · split
          · rename_i hn
            subst hn
            obtain ⟨q, hq⟩ := h value x (by simp)
            rw [hq]
            exact ih' _
          · exact ih' _
    · exact ih' _

/-- **C68** (completeness): a receipt of the server that verifies, whose descriptions are readable events, the last
one with the request's id, is accepted when there is no invoice, or the request states no amount, or the last
invoice has the amount the request states. -/
theorem C68_accepts (C : Crypto) (P : Plat) (b : Build) (cfg : Option Config.Config) (receipt request : Event)
    (hk : receipt.pubkey.length = 32) (hr : receipt.kind = 9735) (hq : request.kind = 9734) (hv : verify C b receipt = .ok ())
    (hall : ∀ v rest, (c!"description" :: v :: rest) ∈ receipt.tags → ∃ q, fromJson P b cfg v = .ok q)
    (d : Bytes) (q : Event) (hd : LastTag receipt (c!"description") d) (hj : fromJson P b cfg d = .ok q) (hid : q.id = request.id)
    (ha : (∀ t ∈ receipt.tags, ∀ w r, t ≠ c!"bolt11" :: w :: r) ∨ (∀ t ∈ request.tags, ∀ w r, t ≠ c!"amount" :: w :: r) ∨
      ∃ n u data msat v, LastTag receipt (c!"bolt11") v ∧ v = c!"lnbc" ++ Num.decNat n ++ [Unit'.letter u] ++ c!"1" ++ data ∧
        n * u.tenths = msat * 10 ∧ n < 2 ^ 64 ∧ msat < 2 ^ 64 ∧ FirstTag request (c!"amount") (Num.decNat msat)) :
    verifyZap C P b cfg receipt request (Hex.Spec.hexText receipt.pubkey) = .ok () := by
  obtain ⟨r, hscan⟩ := scan_ok P b cfg receipt.tags ⟨none, none, none⟩ hall
  obtain ⟨s1, s2⟩ := scan_spec P b cfg _ _ _ hscan
  have hp : parseReceipt P b cfg receipt = .ok (r, r.bolt11.bind amountOf) := by
    unfold parseReceipt
    rw [if_neg (by simp [hr]), hscan]
    rfl
  have hlen : (Hex.Spec.hexText receipt.pubkey).length = 64 := by rw [Hex.hexText_length, hk]
  have hreq : r.request = some q := by
    obtain ⟨before, rest, after, t1, t2⟩ := hd
    rcases s2 with ⟨_, g⟩ | ⟨before', v, rest', after', q', g1, g2, g3, g4⟩
    · exact absurd rfl (g (c!"description" :: d :: rest) (by rw [t1]; simp) d rest)
    · have := lastTag_unique t1 t2 g1 g4
      subst this
      rw [hj] at g3
      cases g3
      exact g2
  have hamt : ¬(requestAmount request.tags > 0 ∧ (r.bolt11.bind amountOf).getD 0 > 0 ∧
      requestAmount request.tags ≠ (r.bolt11.bind amountOf).getD 0) := by
    rintro ⟨a1, a2, a3⟩
    rcases ha with ha | ha | ⟨n, u, data, msat, v, hb, hv', hm, hn, h64, before, rest, after, f1, f2⟩
    · rcases s1 with ⟨g, _⟩ | ⟨before', v, rest', after', g1, g2, g3⟩
      · rw [g] at a2
        exact absurd a2 (by decide)
      · exact ha (c!"bolt11" :: v :: rest') (by rw [g1]; simp) v rest' rfl
    · rw [requestAmount_none _ ha] at a1
      exact absurd a1 (by decide)
    · obtain ⟨hx, _⟩ := C69_amount_partial P b cfg receipt v n u data msat hv' hm hn h64 hb r _ hp
      rw [f1, requestAmount_of _ _ _ _ f2, amount_dec h64, hx] at a3
      exact a3 rfl
  unfold verifyZap
  rw [if_neg (by simp [hr, hq]), Hex.keyToHex, if_neg (by decide), Hex.hexEncode_eq]
  simp only [Res.bind_ok]
  rw [if_neg (by rw [not_or]; exact ⟨by simp [hlen], by simp [(Hex.ctMemcmp_iff rfl).2 rfl]⟩), hp]
  simp only [Res.bind_ok, hreq, hid]
  rw [if_neg (by simp [(Hex.ctMemcmp_iff (rfl : request.id.length = request.id.length)).2 rfl]), if_neg hamt]
  exact hv

/-- A request for 2000 satoshi, and a signed receipt for it. -/
def sampleRequest : Event :=
  { zero with id := List.replicate 32 0xab, kind := 9734, tags := [[c!"amount", c!"2000000"]] }

def sampleReceipt : Res Event :=
  sign Nostr.Event.Props.toyCrypto (.cjson id fun _ => []) (some []) (List.replicate 32 7)
    { zero with kind := 9735, tags := [[c!"bolt11", c!"lnbc20u1pdata"],
        [c!"description", c!"{\"id\":\"abababababababababababababababababababababababababababababababab\",\"kind\":9734}"]] }

example : (sampleReceipt >>= fun r => verifyZap Nostr.Event.Props.toyCrypto ⟨fun _ => 0, false⟩ (.cjson id fun _ => []) none r sampleRequest
    (c!"0707070707070707070707070707070707070707070707070707070707070707")) = .ok () := by decide +kernel

/-- With another amount in the request the same receipt is refused. -/
example : (sampleReceipt >>= fun r => verifyZap Nostr.Event.Props.toyCrypto ⟨fun _ => 0, false⟩ (.cjson id fun _ => []) none r
    { sampleRequest with tags := [[c!"amount", c!"2000001"]] }
    (c!"0707070707070707070707070707070707070707070707070707070707070707")) = .err .invalidEvent := by decide +kernel

/-! ## C70 and C113 -/

theorem lastOne_none : ∀ (s : Bytes) (i sep : Nat), (0x31 : UInt8) ∉ s → lastOne s i sep = sep := by
  intro s
  induction s with
  | nil => intros; rfl
  | cons c s ih =>
    intro i sep h
    unfold lastOne
    rw [ih _ _ (fun hm => h (by simp [hm])), if_neg (fun e => h (by simp [e]))]

theorem lastOne_split : ∀ (a b : Bytes) (i sep : Nat), (0x31 : UInt8) ∉ b → lastOne (a ++ 0x31 :: b) i sep = i + a.length := by
  intro a
  induction a with
  | nil =>
    intro b i sep h
    show lastOne b (i + 1) (if (0x31 : UInt8) = 0x31 then i else sep) = _
    rw [lastOne_none _ _ _ h]
    rfl
  | cons c a ih =>
    intro b i sep h
    show lastOne (a ++ 0x31 :: b) (i + 1) _ = _
    rw [ih _ _ _ h, List.length_cons]
    omega

/-- Every text either has no `1` or splits at its last one. -/
theorem last_split (s : Bytes) : (0x31 : UInt8) ∉ s ∨ ∃ a b, s = a ++ 0x31 :: b ∧ (0x31 : UInt8) ∉ b := by
  induction s with
  | nil => simp
  | cons c s ih =>
    rcases ih with h | ⟨a, b, h1, h2⟩
    · by_cases hc : c = 0x31
      · exact .inr ⟨[], s, by rw [hc]; rfl, h⟩
      · left
        intro hm
        rcases List.mem_cons.1 hm with e | e
        · exact hc e.symm
        · exact h e
    · exact .inr ⟨c :: a, b, by rw [h1]; rfl, h2⟩

theorem validate_eq (a b : Bytes) (hb : (0x31 : UInt8) ∉ b) : validateLnurl (a ++ 0x31 :: b) =
    if (a ++ 0x31 :: b).take 5 ≠ c!"lnurl" then .err .invalidParam
    else if a.length + b.length + 1 < 8 ∨ 90 < a.length + b.length + 1 ∨ b.length < 6 then .err .encoding
    else if 32 ≤ a.length then .ub
    else if a = c!"lnurl" then .ok () else .err .invalidParam := by
  unfold validateLnurl decodeBech32
  by_cases h5 : (a ++ 0x31 :: b).take 5 ≠ c!"lnurl"
  · rw [if_pos h5, if_pos h5]
  · rw [if_neg h5, if_neg h5]
    simp only [lastOne_split a b 0 0 hb, Nat.zero_add, List.take_left, List.length_append, List.length_cons]
    have ha : 1 ≤ a.length := by
      cases a with
      | nil =>
        simp only [List.nil_append, ne_eq, Decidable.not_not] at h5
        have := congrArg List.head? h5
        revert this
        simp
      | cons => simp
    by_cases h1 : a.length + (b.length + 1) < 8 ∨ a.length + (b.length + 1) > 90
    · rw [if_pos h1, if_pos (by omega)]
      rfl
    · rw [if_neg h1]
      by_cases h2 : a.length < 1 ∨ a.length + 7 > a.length + (b.length + 1)
      · rw [if_pos h2, if_pos (by omega)]
        rfl
      · rw [if_neg h2]
        by_cases h3 : a.length + 1 > 32
        · rw [if_pos h3, if_neg (by omega), if_pos (by omega)]
          rfl
        · rw [if_neg h3, if_neg (by omega), if_neg (by omega)]
          simp only [Res.bind_ok]
          by_cases h4 : a = c!"lnurl"
          · rw [if_neg (by simp [h4]), if_pos h4]
          · rw [if_pos h4, if_neg h4]

theorem validate_none (s : Bytes) (hs : (0x31 : UInt8) ∉ s) : validateLnurl s = .err .invalidParam ∨ validateLnurl s = .err .encoding := by
  unfold validateLnurl decodeBech32
  rw [lastOne_none _ _ _ hs]
  split
  · exact .inl rfl
  · right
    simp only [Nat.lt_one_iff, true_or, if_true]
    split <;> rfl

/-- **C70**, where it holds and where not: validation writes outside its 32-byte prefix buffer exactly for the
texts of 39 to 90 characters that begin with `lnurl` and whose last `1` stands at position 32 or later with at
least six characters after it. -/
theorem C70_overflow_iff_partial (s : Bytes) : validateLnurl s = .ub ↔
    ∃ a b, s = a ++ c!"1" ++ b ∧ (0x31 : UInt8) ∉ b ∧ a.take 5 = c!"lnurl" ∧ 32 ≤ a.length ∧ 6 ≤ b.length ∧ s.length ≤ 90 := by
  have assoc (a b : Bytes) : a ++ c!"1" ++ b = a ++ 0x31 :: b := by
    rw [List.append_assoc]; rfl
  constructor
  · intro h
    rcases last_split s with hn | ⟨a, b, rfl, hb⟩
    · rcases validate_none s hn with e | e <;> rw [e] at h <;> cases h
    · rw [validate_eq a b hb] at h
      split at h
      · cases h
      rename_i h1
      split at h
      · cases h
      rename_i h2
      split at h
      · rename_i h3
        refine ⟨a, b, (assoc a b).symm, hb, ?_, h3, by omega, by simp only [List.length_append, List.length_cons]; omega⟩
        rw [List.take_append_of_le_length (by omega)] at h1
        exact Decidable.not_not.1 h1
      · split at h <;> cases h
  · rintro ⟨a, b, rfl, hb, h1, h2, h3, h4⟩
    rw [assoc] at h4 ⊢
    simp only [List.length_append, List.length_cons] at h4
    rw [validate_eq a b hb, if_neg (by rw [List.take_append_of_le_length (by omega), h1]; simp), if_neg (by omega), if_pos h2]

/-- **C70** is false: a text that overruns the buffer by eight bytes. -/
theorem C70_overflow_refuted : ∃ s : Bytes, validateLnurl s = .ub :=
  ⟨c!"lnurlqqqqqqqqqqqqqqqqqqqqqqqqqqqqqqqqqqq1qqqqqq", by decide +kernel⟩

/-- **C113** (what is accepted): exactly `lnurl1` followed by 6 to 84 characters other than `1`. -/
theorem C113_accepted_iff (s : Bytes) : validateLnurl s = .ok () ↔
    ∃ b, s = c!"lnurl1" ++ b ∧ (0x31 : UInt8) ∉ b ∧ 6 ≤ b.length ∧ b.length ≤ 84 := by
  constructor
  · intro h
    rcases last_split s with hn | ⟨a, b, rfl, hb⟩
    · rcases validate_none s hn with e | e <;> rw [e] at h <;> cases h
    · rw [validate_eq a b hb] at h
      split at h
      · cases h
      split at h
      · cases h
      rename_i h2
      split at h
      · cases h
      split at h
      · rename_i h3
        subst h3
        have hl : (c!"lnurl").length = 5 := rfl
        exact ⟨b, rfl, hb, by omega, by omega⟩
      · cases h
  · rintro ⟨b, rfl, hb, h1, h2⟩
    show validateLnurl (c!"lnurl" ++ 0x31 :: b) = .ok ()
    have hl : (c!"lnurl").length = 5 := rfl
    rw [validate_eq _ b hb, if_neg (by rw [List.take_left' hl]; simp), if_neg (by omega), if_neg (by omega), if_pos rfl]

open Nostr.Bech32.Bip173 (IsText char) in
/-- **C113** is false: texts with foreign characters and texts with a wrong checksum are accepted. -/
theorem C113_garbage_refuted :
    (validateLnurl (c!"lnurl1bbbbbb") = .ok () ∧ ¬∃ payload, IsText (c!"lnurl") payload (c!"lnurl1bbbbbb")) ∧
    (validateLnurl (c!"lnurl1qqqqqq") = .ok () ∧ ¬∃ payload, IsText (c!"lnurl") payload (c!"lnurl1qqqqqq")) := by
  have cut (vs : List Nat) (t : Bytes) (h : c!"lnurl1" ++ t = c!"lnurl" ++ c!"1" ++ vs.map char) : t = vs.map char :=
    List.append_cancel_left (as := c!"lnurl1") h
  refine ⟨⟨by decide +kernel, ?_⟩, ⟨by decide +kernel, ?_⟩⟩
  · rintro ⟨payload, syms, ck, hv, hl, _, _, ht⟩
    have h := cut (syms ++ ck) (c!"bbbbbb") ht
    have hmem : ∃ v ∈ syms ++ ck, char v = 0x62 := by
      have : (0x62 : UInt8) ∈ (syms ++ ck).map char := by rw [← h]; decide
      obtain ⟨v, hv, e⟩ := List.mem_map.1 this
      exact ⟨v, hv, e⟩
    obtain ⟨v, hm, e⟩ := hmem
    have : ∀ v < 32, char v ≠ 0x62 := by decide +kernel
    exact this v (hv v hm) e
  · rintro ⟨payload, syms, ck, hv, hl, _, hp, ht⟩
    have h := cut (syms ++ ck) (c!"qqqqqq") ht
    have hz : syms ++ ck = List.replicate 6 0 := by
      have hlen := congrArg List.length h
      simp only [List.length_map] at hlen
      have h0 : ∀ v ∈ syms ++ ck, v = 0 := by
        intro v hm
        have hc : char v ∈ c!"qqqqqq" := by rw [h]; exact List.mem_map_of_mem hm
        have : ∀ v < 32, char v ∈ c!"qqqqqq" → v = 0 := by decide +kernel
        exact this v (hv v hm) hc
      exact List.eq_replicate_iff.2 ⟨hlen.symm, h0⟩
    have hs : syms = [] := by
      have := congrArg List.length hz
      simp only [List.length_append, List.length_replicate, hl] at this
      exact List.length_eq_zero_iff.1 (by omega)
    subst hs
    rw [List.nil_append] at hz
    subst hz
    revert hp
    decide +kernel

open Nostr.Bech32.Bip173 (IsText char) in
/-- **C113** is false for long addresses, and the part that holds: the bech32 text of an address (BIP-173, prefix
`lnurl`, lower case) is accepted if the address has at most 48 bytes, and rejected if it has more. -/
theorem C113_addresses_partial (payload text : Bytes) (h : IsText (c!"lnurl") payload text) :
    validateLnurl text = if payload.length ≤ 48 then .ok () else .err .encoding := by
  obtain ⟨syms, ck, hv, hl, ⟨k, hk, hb⟩, _, rfl⟩ := h
  have hlen := congrArg List.length hb
  simp only [Nostr.Bech32.Bip173.bits, List.length_append, List.length_flatMap, bitsBE_length, List.length_replicate, List.map_const',
    List.sum_replicate_nat, List.length_map] at hlen
  have hno : (0x31 : UInt8) ∉ (syms ++ ck).map char := by
    intro hm
    obtain ⟨v, hm, e⟩ := List.mem_map.1 hm
    have : ∀ v < 32, char v ≠ 0x31 := by decide +kernel
    exact this v (hv v hm) e
  have hbl : ((syms ++ ck).map char).length = syms.length + 6 := by rw [List.length_map, List.length_append, hl]
  rw [List.append_assoc]
  show validateLnurl (c!"lnurl" ++ 0x31 :: (syms ++ ck).map char) = _
  have h5 : (c!"lnurl").length = 5 := rfl
  rw [validate_eq _ _ hno, if_neg (by rw [List.take_left' h5]; simp), hbl, h5]
  by_cases hp : payload.length ≤ 48
  · rw [if_neg (by omega), if_neg (by omega), if_pos rfl, if_pos hp]
  · rw [if_pos (by omega), if_neg hp]

/-! ## C114 -/

/-- **C114** (what a request contains): kind, the content, the first fifteen relays, the amount, the LNURL and
the recipient. -/
theorem C114_request_partial (cfg : Option Config.Config) (now : Int) (amount : Nat) (recipient : Bytes) (lnurl content : Option Bytes)
    (relays : List Bytes) (e : Event) (h : createRequest cfg now amount recipient lnurl content relays = .ok e) :
    e.kind = 9734 ∧ e.createdAt = now ∧ e.text = content.getD [] ∧ relays ≠ [] ∧
    e.tags = [c!"relays" :: relays.take 15, [c!"amount", Num.decNat amount]] ++ (lnurl.toList.map fun u => [c!"lnurl", u]) ++
      [[c!"p", Hex.Spec.hexText recipient]] ∧
    (relays.length ≤ 15 → FirstTag e (c!"relays") (relays.headD []) ∧ ∃ t ∈ e.tags, t = c!"relays" :: relays) ∧
    FirstTag e (c!"amount") (Num.decNat amount) ∧ FirstTag e (c!"p") (Hex.Spec.hexText recipient) := by
  unfold createRequest at h
  split at h
  · cases h
  rename_i hne
  obtain ⟨e1, h1, h⟩ := Res.bind_eq_ok.1 h
  obtain ⟨e2, h2, h⟩ := Res.bind_eq_ok.1 h
  obtain ⟨e3, h3, h⟩ := Res.bind_eq_ok.1 h
  obtain ⟨hex, h4, h⟩ := Res.bind_eq_ok.1 h
  have g1 := addTag_ok h1
  have g2 := addTag_ok h2
  have g4 := addTag_ok h
  simp only [Hex.keyToHex, Nat.lt_irrefl, if_false, Res.ok.injEq] at h4
  rw [Hex.hexEncode_eq] at h4
  have htags : e.tags = [c!"relays" :: relays.take 15, [c!"amount", Num.decNat amount]] ++ (lnurl.toList.map fun u => [c!"lnurl", u]) ++
      [[c!"p", Hex.Spec.hexText recipient]] ∧ e.kind = 9734 ∧ e.createdAt = now ∧ e.content = content.filter (· ≠ []) := by
    cases lnurl with
    | none =>
      simp only [Res.ok.injEq] at h3
      subst h3 h4 g4 g2 g1
      simp [zero, relayTag]
    | some u =>
      have g3 := addTag_ok h3
      subst h4 g4 g3 g2 g1
      simp [zero, relayTag]
  obtain ⟨t1, t2, t3, t4⟩ := htags
  obtain ⟨r, rs, rfl⟩ : ∃ r rs, relays = r :: rs := by
    cases relays with
    | nil => exact absurd rfl hne
    | cons r rs => exact ⟨r, rs, rfl⟩
  refine ⟨t2, t3, ?_, hne, t1, ?_, ?_, ?_⟩
  · unfold Event.text
    rw [t4]
    match content with
    | none => rfl
    | some [] => rfl
    | some (c :: s) => rfl
  · intro hl
    rw [List.take_of_length_le hl] at t1
    refine ⟨⟨[], rs, _, by rw [t1]; rfl, by simp⟩, _, ?_, rfl⟩
    rw [t1]
    simp
  · refine ⟨[c!"relays" :: (r :: rs).take 15], [], (lnurl.toList.map fun u => [c!"lnurl", u]) ++ [[c!"p", Hex.Spec.hexText recipient]],
      by rw [t1]; simp, ?_⟩
    intro t ht w x e'
    rw [List.mem_singleton] at ht
    rw [ht] at e'
    simp only [List.cons.injEq] at e'
    exact absurd e'.1 (by decide)
  · refine ⟨[c!"relays" :: (r :: rs).take 15, [c!"amount", Num.decNat amount]] ++ (lnurl.toList.map fun u => [c!"lnurl", u]), [], [],
      by rw [t1], ?_⟩
    intro t ht w x e'
    simp only [List.mem_append, List.mem_cons, List.not_mem_nil, or_false, List.mem_map] at ht
    rcases ht with (ht | ht) | ⟨u, _, ht⟩
    · rw [ht] at e'; simp only [List.cons.injEq] at e'; exact absurd e'.1 (by decide)
    · rw [ht] at e'; simp only [List.cons.injEq] at e'; exact absurd e'.1 (by decide)
    · rw [← ht] at e'; simp only [List.cons.injEq] at e'; exact absurd e'.1 (by decide)

example : ∃ e, createRequest none 5 21000 (List.replicate 32 7) (some (c!"lnurl1x")) (some (c!"hi")) [c!"wss://a", c!"wss://b"] = .ok e := by
  exact ⟨_, rfl⟩

/-- **C114** is false beyond fifteen relays: the sixteenth and later ones are dropped without an error. -/
theorem C114_relays_refuted : ∃ (relays : List Bytes) (e : Event), createRequest none 5 21000 (List.replicate 32 7) none none relays = .ok e ∧
    ∃ r ∈ relays, ∀ t ∈ e.tags, r ∉ t := by
  refine ⟨List.replicate 15 (c!"wss://a") ++ [c!"wss://b"], _, rfl, c!"wss://b", by simp, ?_⟩
  decide +kernel

end Nostr.Zap.Props
