import Verif.Zap.Example
import Verif.Zap.GuideProps

/-! # Property theorems: C219 (the zap example) -/

namespace Nostr.Zap.Example.Props
open Nostr Nostr.Event Nostr.Event.Spec Nostr.Zap Nostr.Zap.Spec Nostr.Zap.Example Nostr.Journey.Spec
open Nostr.Zap.Guide.Props (read_written)
open Nostr.Journey.Post.Props (Ready signed begin_ready)

/-! ## The options -/

/-- An option as its user means it. -/
inductive Opt
  | message (s : Bytes)
  | relay (s : Bytes)

/-- How it is written. -/
def Opt.args : Opt → List Bytes
  | .message s => [c!"-m", s]
  | .relay s => [c!"-r", s]

/-- The messages and the relays named. -/
def Opt.message? : Opt → Option Bytes
  | .message s => some s
  | .relay _ => none
def Opt.relay? : Opt → Option Bytes
  | .message _ => none
  | .relay s => some s

theorem options_skip {u : Bytes} (h1 : u ≠ c!"-m") (h2 : u ≠ c!"-r") (l : List Bytes) (m : Option Bytes) (rs : List Bytes) :
    options (u :: l) m rs = options l m rs := by
  cases l with
  | nil => simp [options]
  | cons v l => rw [options, if_neg h1, if_neg h2]

theorem options_eq (os : List Opt) (hv : ∀ u, Opt.relay u ∈ os → u ≠ c!"-m" ∧ u ≠ c!"-r") : ∀ (m : Option Bytes) (rs : List Bytes), rs.length ≤ 10 →
    options (os.flatMap Opt.args) m rs = ((os.filterMap Opt.message?).getLast?.or m, (rs ++ os.filterMap Opt.relay?).take 10) := by
  induction os with
  | nil => intro m rs h; simp [options, List.take_of_length_le h]
  | cons o os ih =>
    intro m rs h
    have ih := ih fun u hu => hv u (List.mem_cons_of_mem _ hu)
    cases o with
    | message s =>
      rw [List.flatMap_cons, Opt.args, List.cons_append, List.cons_append, List.nil_append, options, if_pos rfl, ih _ _ h]
      simp only [List.filterMap_cons, Opt.message?, Opt.relay?, List.getLast?_cons]
      cases (os.filterMap Opt.message?).getLast? <;> simp
    | relay s =>
      obtain ⟨h1, h2⟩ := hv s (List.mem_cons_self ..)
      rw [List.flatMap_cons, Opt.args, List.cons_append, List.cons_append, List.nil_append, options, if_neg (by decide), if_pos rfl]
      simp only [List.filterMap_cons, Opt.message?, Opt.relay?]
      split
      · rename_i hl
        rw [ih _ _ (by simp; omega)]
        simp
      · rename_i hl
        have hl : rs.length = 10 := by omega
        rw [options_skip h1 h2, ih _ _ h, List.take_append_of_le_length (by omega), List.take_append_of_le_length (by omega)]

/-- **C219, the options.** The message is the last one given; the relays are the built-in one and the first nine given, in order. (A relay is not called `-m`
or `-r`.) -/
theorem C219_options (os : List Opt) (hv : ∀ u, Opt.relay u ∈ os → u ≠ c!"-m" ∧ u ≠ c!"-r") :
    options (os.flatMap Opt.args) none [damus] = ((os.filterMap Opt.message?).getLast?, damus :: (os.filterMap Opt.relay?).take 9) := by
  rw [options_eq os hv none [damus] (by simp)]
  simp

/-- **C219, the table of relays.** Whatever the arguments, the table of ten relays is not overrun. -/
theorem C219_bound (args : List Bytes) : ∀ (m : Option Bytes) (rs : List Bytes), 1 ≤ rs.length → rs.length ≤ 10 →
    1 ≤ (options args m rs).2.length ∧ (options args m rs).2.length ≤ 10 := by
  intro m rs
  fun_induction options args m rs with
  | case1 => exact fun h1 h2 => ⟨h1, h2⟩
  | case2 => exact fun h1 h2 => ⟨h1, h2⟩
  | case3 _ _ _ _ ih => exact ih
  | case4 _ _ _ _ _ _ ih => intro h1 h2; exact ih (by simp) (by simp; omega)
  | case5 _ _ _ _ _ _ ih => exact ih
  | case6 => assumption

/-! ## Requests -/

/-- **C219** (part), the request. What the program prints is the JSON of a signed zap request, from which every host that admits it reads the same request: kind
9734, the recipient, the amount, the address and the last message given, and the relays of `C219_options`. Missing: the amount is what
`strtoull` makes of the text (`C219_amount_refuted`). -/
theorem C219_create_partial {C : Crypto} (hC : Event.Props.CryptoOK C) (hS : Gift.Spec.Sizes C) {h : Host} {rand : Option Bytes} {now : Int}
    {sk npub lnurl : Bytes} {n : Nat} (hn : n < 2 ^ 64) {os : List Opt} (hv : ∀ u, Opt.relay u ∈ os → u ≠ c!"-m" ∧ u ≠ c!"-r") (hu : CStr lnurl)
    (hm : ∀ s, Opt.message s ∈ os → CStr s) (hr : ∀ s, Opt.relay s ∈ os → CStr s) (ht : now.natAbs < 10 ^ 15) {q : Event} {j : Bytes}
    (hc : create C h rand now sk (Num.decNat n) npub lnurl (os.flatMap Opt.args) = .ok (q, j)) :
    ∃ r, Bech32.keyFromBech32 npub = .ok r ∧ C.pubOf sk = some q.pubkey ∧ q.kind = 9734 ∧ q.createdAt = now ∧
      q.text = (os.filterMap Opt.message?).getLast?.getD [] ∧ verify C h.b q = .ok () ∧
      q.tags = [c!"relays" :: damus :: (os.filterMap Opt.relay?).take 9, [c!"amount", Num.decNat n], [c!"lnurl", lnurl],
        [c!"p", Hex.Spec.hexText r]] ∧
      ∀ other : Host, other.Admits q → fromJson other.P other.b other.cfg j = .ok (delivered q) := by
  unfold create at hc
  rw [C219_options os hv] at hc
  obtain ⟨r, h1, hc⟩ := Res.bind_eq_ok.1 hc
  obtain ⟨x, h2, hc⟩ := Res.bind_eq_ok.1 hc
  obtain ⟨q', hs, hc⟩ := Res.bind_eq_ok.1 hc
  obtain ⟨j', hj, hc⟩ := Res.bind_eq_ok.1 hc
  simp only [Res.ok.injEq, Prod.mk.injEq] at hc
  obtain ⟨rfl, rfl⟩ := hc
  obtain ⟨g1, g2, g3, -, g4, -⟩ := Zap.Props.C114_request_partial _ _ _ _ _ _ _ _ h2
  have hready : Ready x := begin_ready (D := ⟨h, C, Nip47.Props.sumNc, Base64.codec⟩) Gift.Props.codec_standard (now := now)
    (s := .zap (Num.strtoul (Num.decNat n)).1 r (some lnurl) (os.filterMap Opt.message?).getLast? (damus :: (os.filterMap Opt.relay?).take 9))
    ⟨fun t e => by cases e; exact hu, fun t e => by
        obtain ⟨o, ho, he⟩ := List.mem_filterMap.1 (List.mem_of_getLast? e)
        cases o with
        | message s => simp only [Opt.message?, Option.some.injEq] at he; subst he; exact hm _ ho
        | relay s => simp [Opt.message?] at he, fun t ht => by
        rcases List.mem_cons.1 ht with rfl | ht
        · decide
        · obtain ⟨o, ho, he⟩ := List.mem_filterMap.1 (List.mem_of_mem_take ht)
          cases o with
          | message s => simp [Opt.relay?] at he
          | relay s => simp only [Opt.relay?, Option.some.injEq] at he; subst he; exact hr _ ho⟩ h2
  obtain ⟨hver, -, hsame⟩ := Event.Props.C19_signed_verifies hC hs
  have htime : q'.createdAt = now := hsame.2.1.trans g2
  obtain ⟨k1, k2, k3, k4, k5, k6⟩ := signed hC hS hready hs (by rw [htime]; exact ht)
  refine ⟨r, h1, k2, k4.trans g1, htime, hsame.2.2.2.2.trans g3, hver, ?_, fun other ha => read_written h other k1 (by rw [htime]; exact ht) ha hj⟩
  rw [k5, g4, List.take_of_length_le (by simp [List.length_take]; omega), show (Num.strtoul (Num.decNat n)).1 = n from ?_]
  · rfl
  · have := Num.scanDec_decNat (n := n) (rest := []) (by simp)
    rw [List.append_nil] at this
    unfold Num.strtoul
    rw [this]
    simp only [Bool.false_eq_true, if_false]
    rw [if_neg (by omega)]

/-! ## Receipts -/

/-- **C219, receipts.** When the program says that a receipt is valid, the receipt was signed by the server named, for the request given. Whenever it gives a verdict it
ends with status 0. -/
theorem C219_valid {C : Crypto} (hC : Event.Props.CryptoOK C) {h : Host} {receipt request server : Bytes} {v : Verdict} {x : Nat}
    (hc : check C h receipt request server = .ok (some v, x)) :
    ∃ e q, fromJson h.P h.b h.cfg receipt = .ok e ∧ fromJson h.P h.b h.cfg request = .ok q ∧
      (v.valid = true ↔ verifyZap C h.P h.b h.cfg e q server = .ok ()) ∧
      (v.valid = true → e.kind = 9735 ∧ q.kind = 9734 ∧ server = Hex.Spec.hexText e.pubkey ∧
        (∃ t, serialize h.b e = .ok t ∧ e.id = C.sha256 t) ∧ C.verify e.pubkey e.id e.sig = true ∧
        (∃ d q', LastTag e (c!"description") d ∧ fromJson h.P h.b h.cfg d = .ok q' ∧ q'.id = q.id)) ∧ x = 0 := by
  unfold check at hc
  split at hc
  · simp at hc
  · simp at hc
  · rename_i e he
    split at hc
    · simp at hc
    · simp at hc
    · rename_i q hq
      obtain ⟨⟨l1, l2, -, -⟩, -⟩ := Event.Props.C116_lengths _ _ _ _ _ he
      obtain ⟨⟨l3, -, -, -⟩, -⟩ := Event.Props.C116_lengths _ _ _ _ _ hq
      have sound := Zap.Props.C68_sound C hC h.P h.b h.cfg e q server l1 l2 l3
      refine ⟨e, q, he, hq, ?_⟩
      split at hc
      · simp at hc
      · rename_i y hz
        simp only [Res.ok.injEq, Prod.mk.injEq, Option.some.injEq] at hc
        obtain ⟨rfl, rfl⟩ := hc
        simp [hz]
      · rename_i hz
        obtain ⟨s1, s2, s3, s4, s5, s6, -⟩ := sound hz
        have : v.valid = true ∧ x = 0 := by
          split at hc <;> simp only [Res.ok.injEq, Prod.mk.injEq, Option.some.injEq, reduceCtorEq] at hc <;>
            (obtain ⟨rfl, rfl⟩ := hc; exact ⟨rfl, rfl⟩)
        exact ⟨⟨fun _ => hz, fun _ => this.1⟩, fun _ => ⟨s1, s2, s3, s4, s5, s6⟩, this.2⟩

/-- **C219, what is printed.** For a valid receipt the program prints the invoice of its last `bolt11` tag, if it has one, and, for an invoice with a multiplier letter
whose amount fits 64 bits, that amount; for a receipt that is refused it prints neither. -/
theorem C219_printed {C : Crypto} {h : Host} {receipt request server : Bytes} {v : Verdict} {x : Nat}
    (hc : check C h receipt request server = .ok (some v, x)) :
    (v.valid = false → v.invoice = none ∧ v.amount = none) ∧
    (v.valid = true → ∃ e, fromJson h.P h.b h.cfg receipt = .ok e ∧
      (∀ i, v.invoice = some i → LastTag e (c!"bolt11") i) ∧
      (v.invoice = none → ∀ t ∈ e.tags, ∀ w y, t ≠ c!"bolt11" :: w :: y) ∧
      (v.invoice = none → v.amount = none) ∧
      ∀ (n : Nat) (u : Unit') (data : Bytes) (msat : Nat), v.invoice = some (c!"lnbc" ++ Num.decNat n ++ [u.letter] ++ c!"1" ++ data) →
        n * u.tenths = msat * 10 → n < 2 ^ 64 → msat < 2 ^ 64 → 0 < msat → v.amount = some msat) := by
  unfold check at hc
  split at hc
  · simp at hc
  · simp at hc
  · rename_i e he
    split at hc
    · simp at hc
    · simp at hc
    · rename_i q hq
      split at hc
      · simp at hc
      · simp only [Res.ok.injEq, Prod.mk.injEq, Option.some.injEq] at hc
        obtain ⟨rfl, rfl⟩ := hc
        simp
      · rename_i hz
        unfold verifyZap at hz
        split at hz
        · simp at hz
        obtain ⟨hex, -, hz⟩ := Res.bind_eq_ok.1 hz
        split at hz
        · simp at hz
        obtain ⟨r, hr, -⟩ := Res.bind_eq_ok.1 hz
        rw [hr] at hc
        simp only [Res.ok.injEq, Prod.mk.injEq, Option.some.injEq] at hc
        obtain ⟨rfl, rfl⟩ := hc
        refine ⟨by simp, fun _ => ⟨e, he, ?_⟩⟩
        have h4 := hr
        unfold parseReceipt at h4
        split at h4
        · simp at h4
        obtain ⟨r', h5, h4⟩ := Res.bind_eq_ok.1 h4
        simp only [Res.ok.injEq] at h4
        subst h4
        have last : ∀ i, r'.bolt11 = some i → LastTag e (c!"bolt11") i := by
          intro i hi
          rcases (Zap.Props.scan_spec _ _ _ _ _ _ h5).1 with ⟨g, -⟩ | ⟨before, v', rest, after, g1, g2, g3⟩
          · rw [g] at hi; simp at hi
          · rw [g2] at hi
            cases hi
            exact ⟨before, rest, after, g1, g3⟩
        refine ⟨last, fun hn => ?_, fun hn => ?_, fun n u data msat hi hm hn h64 hp => ?_⟩
        · rcases (Zap.Props.scan_spec _ _ _ _ _ _ h5).1 with ⟨-, g⟩ | ⟨before, v', rest, after, g1, g2, g3⟩
          · exact g
          · simp only at hn
            rw [g2] at hn; simp at hn
        · simp only at hn
          simp [hn]
        · have := (Zap.Props.C69_amount_partial _ _ _ _ _ n u data msat rfl hm hn h64 (last _ hi) _ _ hr).1
          simp only at this ⊢
          rw [this]
          simp [hp]

/-! ## Where it fails -/

/-- **C219 fails**: a receipt that is refused, here an object without any field, does not change the status: it is 0. -/
theorem C219_status_refuted (C : Crypto) (h : Host) (server : Bytes) : check C h (c!"{}") (c!"{}") server = .ok (some ⟨false, none, none⟩, 0) := by
  have hp : Json.parse (c!"{}") = some (.obj []) := by rfl
  have hz : fromJson h.P h.b h.cfg (c!"{}") = .ok zero := by
    simp only [fromJson, Host.b, hp]
    rfl
  have hv : verifyZap C h.P h.b h.cfg zero zero server = .err .invalidEvent := by
    unfold verifyZap
    rw [if_pos (by decide)]
  simp only [check, hz, hv]

/-- **C219 fails**: a text that is no amount makes a signed request: `ten` asks for 0 and `-1` for 2^64 - 1 millisatoshi. -/
theorem C219_amount_refuted : ∃ q j q' j',
    create Gift.Props.sized Guide.Props.home (some []) 1700000000 (List.replicate 32 1) (c!"ten") Guide.Props.npub (c!"lnurl1x") [] = .ok (q, j) ∧
    create Gift.Props.sized Guide.Props.home (some []) 1700000000 (List.replicate 32 1) (c!"-1") Guide.Props.npub (c!"lnurl1x") [] = .ok (q', j') ∧
    [c!"amount", c!"0"] ∈ q.tags ∧ [c!"amount", c!"18446744073709551615"] ∈ q'.tags := by
  have key : ∀ (x : Res (Event × Bytes)) (t : List Bytes), (match x with | .ok (q, _) => decide (t ∈ q.tags) | _ => false) = true →
      ∃ q j, x = .ok (q, j) ∧ t ∈ q.tags := by
    intro x t h
    split at h
    · exact ⟨_, _, rfl, by simpa using h⟩
    · simp at h
  obtain ⟨q, j, h1, h2⟩ := key (create Gift.Props.sized Guide.Props.home (some []) 1700000000 (List.replicate 32 1) (c!"ten") Guide.Props.npub (c!"lnurl1x") [])
    [c!"amount", c!"0"] (by decide +kernel)
  obtain ⟨q', j', h3, h4⟩ := key (create Gift.Props.sized Guide.Props.home (some []) 1700000000 (List.replicate 32 1) (c!"-1") Guide.Props.npub (c!"lnurl1x") [])
    [c!"amount", c!"18446744073709551615"] (by decide +kernel)
  exact ⟨q, j, q', j', h1, h3, h2, h4⟩

/-! Non-vacuity: options with two messages and a relay, a request made with them, and a receipt found valid. -/

example : options ([.message (c!"a"), .relay (c!"wss://b"), .message (c!"c")].flatMap Opt.args) none [damus] =
    (some (c!"c"), [damus, c!"wss://b"]) := by decide +kernel

example : (match create Gift.Props.sized Guide.Props.home (some []) 1700000000 (List.replicate 32 1) (Num.decNat 21000) Guide.Props.npub (c!"lnurl1x")
    ([.message (c!"a"), .relay (c!"wss://b")].flatMap Opt.args) with
    | .ok (q, _) => decide (q.content = some (c!"a") ∧ [c!"relays", damus, c!"wss://b"] ∈ q.tags)
    | _ => false) = true := by decide +kernel

example : check Gift.Props.sized Guide.Props.home Guide.Props.receiptText Guide.Props.requestText (Hex.Spec.hexText (List.replicate 32 2)) =
    .ok (some ⟨true, some 21000, some (c!"lnbc210n1pdata")⟩, 0) := by decide +kernel

end Nostr.Zap.Example.Props
