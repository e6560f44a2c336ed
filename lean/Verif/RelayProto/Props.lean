import Verif.RelayProto.Lemmas

/-! # Property theorems: C21, C22, C26–C29, C84–C87 -/

namespace Nostr.RelayProto.Props
open Nostr Nostr.Event Nostr.RelayProto Spec Nostr.Event.Props
open Nostr.Event.Spec (WF)

/-! ## C21 -/

/-- C21: every kind lies in the NIP-01 range of the class it is assigned, and in no other. -/
theorem C21_partition (k : Int) (c : KindType) : kindType k = c ↔ InClass c k := by
  unfold kindType
  cases c <;> simp only [InClass] <;> constructor <;> intro h
  all_goals repeat' split at h
  all_goals first
    | omega
    | (cases h; done)
    | skip
  all_goals repeat' split
  all_goals first
    | rfl
    | (exfalso; omega)

/-- C21: each predicate holds exactly on the NIP-01 range of its class. -/
theorem C21_predicates (k : Int) :
    (isRegular k = true ↔ InClass .regular k) ∧ (isReplaceable k = true ↔ InClass .replaceable k) ∧
    (isEphemeral k = true ↔ InClass .ephemeral k) ∧ (isAddressable k = true ↔ InClass .addressable k) := by
  simp only [isRegular, isReplaceable, isEphemeral, isAddressable, beq_iff_eq, C21_partition, and_self]

/-- C21: exactly one predicate holds of every kind. -/
theorem C21_exactly_one (k : Int) :
    (InClass .regular k ∨ InClass .replaceable k ∨ InClass .ephemeral k ∨ InClass .addressable k) ∧
    ∀ c d, InClass c k → InClass d k → c = d := by
  constructor
  · have h := (C21_partition k (kindType k)).1 rfl
    cases hk : kindType k <;> rw [hk] at h <;> simp [h]
  · intro c d hc hd
    rw [← C21_partition] at hc hd
    rw [← hc, ← hd]

example : kindType 9999 = .regular ∧ kindType 10000 = .replaceable ∧ kindType 19999 = .replaceable ∧
    kindType 20000 = .ephemeral ∧ kindType 30000 = .addressable ∧ kindType 40000 = .regular := by decide

/-! ## C22 -/

/-- C22: the comparison is positive exactly when the first event supersedes the second, negative exactly
in the opposite case, and zero exactly when timestamp and id agree. -/
theorem C22_total_order {a b : Event} (ha : a.id.length = 32) (hb : b.id.length = 32) :
    (compareReplaceable a b > 0 ↔ Supersedes a b) ∧ (compareReplaceable a b < 0 ↔ Supersedes b a) ∧
    (compareReplaceable a b = 0 ↔ a.createdAt = b.createdAt ∧ a.id = b.id) := by
  have h1 := compare_pos_iff (a := a) (b := b) (by rw [ha, hb])
  have h2 := compare_neg_iff (a := a) (b := b) (by rw [ha, hb])
  refine ⟨h1, h2, ?_⟩
  constructor
  · intro h
    exact supersedes_total (fun hs => by have := h1.2 hs; omega) (fun hs => by have := h2.2 hs; omega)
  · rintro ⟨h3, h4⟩
    have n1 : ¬ Supersedes a b := by
      unfold Supersedes; rw [h3, h4]; simp [List.lt_irrefl]
    have n2 : ¬ Supersedes b a := by
      unfold Supersedes; rw [h3, h4]; simp [List.lt_irrefl]
    have a1 : ¬ compareReplaceable a b > 0 := fun h => n1 (h1.1 h)
    have a2 : ¬ compareReplaceable a b < 0 := fun h => n2 (h2.1 h)
    omega

/-- C22: the slot after any non-empty history holds one of the versions, and none of them supersedes it. -/
theorem C22_best (history : List Event) (hne : history ≠ []) (hid : ∀ e ∈ history, e.id.length = 32) :
    ∃ w, slotAfter history = some w ∧ w ∈ history ∧ ∀ e ∈ history, ¬ Supersedes e w := by
  cases history with
  | nil => exact absurd rfl hne
  | cons x l => exact fold_best l (fun e he => hid e (by simp [he])) x (hid x (by simp))

/-- C22, convergence: two relays that have seen the same versions, in any order and with any
repetitions, end with the same timestamp and id; with the same event if an id names one event. -/
theorem C22_converge (h1 h2 : List Event) (hsame : ∀ e, e ∈ h1 ↔ e ∈ h2)
    (hid : ∀ e ∈ h1, e.id.length = 32) :
    (slotAfter h1).map (fun e => (e.createdAt, e.id)) = (slotAfter h2).map (fun e => (e.createdAt, e.id)) ∧
    ((∀ a ∈ h1, ∀ b ∈ h1, a.id = b.id → a = b) → slotAfter h1 = slotAfter h2) := by
  by_cases hn : h1 = []
  · subst hn
    have : h2 = [] := List.eq_nil_iff_forall_not_mem.2 fun e he => by simpa using (hsame e).2 he
    subst this
    exact ⟨rfl, fun _ => rfl⟩
  · have hn2 : h2 ≠ [] := by
      rintro rfl
      exact hn (List.eq_nil_iff_forall_not_mem.2 fun e he => by simpa using (hsame e).1 he)
    obtain ⟨w1, e1, m1, b1⟩ := C22_best h1 hn hid
    obtain ⟨w2, e2, m2, b2⟩ := C22_best h2 hn2 fun e he => hid e ((hsame e).2 he)
    have := supersedes_total (b2 w1 ((hsame _).1 m1)) (b1 w2 ((hsame _).2 m2))
    rw [e1, e2]
    simp only [Option.map_some, Option.some.injEq, Prod.mk.injEq]
    exact ⟨this, fun hu => hu _ m1 _ ((hsame _).2 m2) this.2⟩

example : ∃ a b c : Event, a.id.length = 32 ∧ b.id.length = 32 ∧ c.id.length = 32 ∧
    slotAfter [a, b, c] = some b ∧ slotAfter [c, b, b, a] = some b ∧ a ≠ b ∧ c ≠ b :=
  ⟨{ note with createdAt := 5 }, { note with createdAt := 7, id := List.replicate 31 0 ++ [1] },
    { note with createdAt := 7, id := List.replicate 31 0 ++ [2] }, by decide, by decide, by decide,
    by decide, by decide, by decide, by decide⟩

/-! ## C26 -/

/-- C26 by id: for every deletion event (kind 5) the parsed request authorises deleting `t` by id iff the
deletion has the same author and one of its `e` tags names the id of `t`. -/
theorem C26_by_id {d t : Event} {r : Deletion} (hd : WF d) (ht : WF t) (h : deletionParse d = .ok r) :
    deletionAuthorized r t = true ↔ d.pubkey = t.pubkey ∧ RefersById d t := by
  unfold deletionParse at h
  split at h
  · simp at h
  · simp only [Res.ok.injEq] at h
    subst h
    unfold deletionAuthorized
    simp only [Hex.hexEncode_eq]
    split
    · rename_i hne
      simp only [Bool.false_eq_true, false_iff, not_and]
      intro he
      rw [he] at hne
      exact absurd rfl hne
    · rename_i he
      have he := Hex.hexText_inj (Decidable.not_not.1 he)
      simp only [List.any_eq_true, decide_eq_true_eq, exists_eq_right, he, true_and]
      rw [mem_delIds, validateHex64_hexText ht.id]
      simp [RefersById]

/-- C26 by id: only kind-5 events are deletion requests. -/
theorem C26_kind (d : Event) : (deletionParse d).isOk = true ↔ d.kind = 5 := by
  unfold deletionParse; split <;> simp_all [Res.isOk]

/-- C26 by address (part): the request authorises deleting `t` by address iff same author, `t` is of an
addressable kind and an `a` tag is the address of `t`, provided that address has at most 255 bytes.
Missing: the not-newer condition and longer addresses, for which it fails (below); replaceable kinds are
never deleted by address. -/
theorem C26_by_address_partial {d t : Event} {r : Deletion} (hd : WF d) (ht : WF t)
    (h : deletionParse d = .ok r) (hlen : ∀ dv, DValue t dv → (address t dv).length < 256) :
    deletionAuthorizedAddress r t = true ↔
      InClass .addressable t.kind ∧ d.pubkey = t.pubkey ∧ RefersByAddress d t := by
  unfold deletionParse at h
  split at h
  · simp at h
  · simp only [Res.ok.injEq] at h
    subst h
    have hdv : DValue t ((tagValue t.tags (c!"d")).getD []) := dValue_iff.2 rfl
    unfold deletionAuthorizedAddress
    rw [← (C21_predicates t.kind).2.2.2]
    split
    · rename_i hk; simp at hk; simp [hk]
    · rename_i hk
      simp only [Bool.not_eq_true, Bool.not_eq_false'] at hk
      simp only [hk, true_and, Hex.hexEncode_eq]
      split
      · rename_i hne
        simp only [Bool.false_eq_true, false_iff, not_and]
        intro he
        rw [he] at hne
        exact absurd rfl hne
      · rename_i he
        have he := Hex.hexText_inj (Decidable.not_not.1 he)
        rw [addressText_eq, if_neg (Nat.not_le.2 (hlen _ hdv))]
        simp only [List.any_eq_true, decide_eq_true_eq, exists_eq_right, he, true_and]
        rw [mem_delAddrs, validateAddress_address ht.pubkey]
        simp only [true_and, RefersByAddress]
        constructor
        · rintro ⟨m, hm⟩; exact ⟨_, m, hdv, hm⟩
        · rintro ⟨dv, m, h1, hm⟩
          rw [dValue_iff] at h1
          rw [h1]
          exact ⟨m, hm⟩

/-- An article and its deletion request, for the examples. -/
def article : Event := { note with kind := 30023, tags := [[c!"d", c!"x"]], createdAt := 1700000000 }

/-- Deletion of `article` by address. -/
def articleDel (time : Int) : Event :=
  { note with kind := 5, createdAt := time, tags := [[c!"a", address article (c!"x")]] }

/-- C26 does not look at time: a deletion request older than the target deletes it by address (NIP-09:
only versions up to the request's own timestamp). -/
theorem C26_newer_refuted : ∃ d t r, WF d ∧ WF t ∧ d.createdAt < t.createdAt ∧ deletionParse d = .ok r ∧
    deletionAuthorizedAddress r t = true :=
  ⟨articleDel 1600000000, article, _, ⟨by decide, by decide, by decide, by decide, by decide, by decide,
    by decide⟩, ⟨by decide, by decide, by decide, by decide, by decide, by decide, by decide⟩, by decide, rfl,
    by decide +kernel⟩

example : ∃ r, deletionParse (articleDel 1700000001) = .ok r ∧ deletionAuthorizedAddress r article = true ∧
    (address article (c!"x")).length < 256 := ⟨_, rfl, by decide +kernel, by decide +kernel⟩

/-- C26: an event whose `d` value makes its address 256 bytes or longer can never be deleted by address,
even by its author naming it exactly. -/
theorem C26_long_refuted {t : Event} {dv : Bytes} (h1 : DValue t dv) (h2 : (address t dv).length ≥ 256) :
    ∀ r, deletionAuthorizedAddress r t = false := by
  intro r
  rw [dValue_iff] at h1
  unfold deletionAuthorizedAddress
  rw [addressText_eq, h1, if_pos h2]
  split
  · rfl
  · split <;> rfl

example : ∃ t dv, WF t ∧ DValue t dv ∧ (address t dv).length ≥ 256 :=
  ⟨{ article with tags := [[c!"d", List.replicate 190 0x61]] }, List.replicate 190 0x61,
    ⟨by decide, by decide, by decide, by decide, by decide, by decide, by decide⟩, dValue_iff.2 rfl,
    by decide +kernel⟩

/-! ## C27 -/

/-- C27 (part): if the first `expiration` tag with a value holds a decimal number other than zero, the
event is expired exactly after that second, for every clock value.  Missing: the second itself and zero,
for which it fails (below). -/
theorem C27_expired_partial {e : Event} {v : Bytes} {now : Int} (hf : FirstTag e.tags (c!"expiration") v)
    (hv : Decimal v) (hz : Num.natOf v ≠ 0) (hn : isInt64 now) :
    isExpired e now = true ↔ (Num.natOf v : Int) < now := by
  unfold isInt64 at hn
  have hx : expiration e = if (Num.natOf v : Int) > 2 ^ 63 - 1 then 2 ^ 63 - 1 else (Num.natOf v : Int) := by
    unfold expiration
    rw [tagValue_of_first hf]
    simp only [strtol_decimal hv]
    rw [if_neg]
    simp only [ne_eq, not_true_eq_false, false_or]
    split <;> omega
  unfold isExpired
  rw [hx]
  split
  · rw [if_neg (by omega)]; simp only [decide_eq_true_eq]; omega
  · rw [if_neg (by omega)]; simp only [decide_eq_true_eq]

example : ∃ e : Event, ∃ v, FirstTag e.tags (c!"expiration") v ∧ Decimal v ∧ Num.natOf v ≠ 0 ∧
    isExpired e 1700000001 = true ∧ isExpired e 1700000000 = false :=
  ⟨{ note with tags := [[c!"expiration"], [c!"expiration", c!"1700000000"]] }, c!"1700000000",
    tagValue_iff.1 (by decide), ⟨by decide, by decide⟩, by decide, by decide, by decide⟩

/-- C27: without an `expiration` tag that has a value, an event never expires. -/
theorem C27_never {e : Event} (h : ∀ v r, (c!"expiration" :: v :: r) ∉ e.tags) (now : Int) :
    isExpired e now = false := by
  unfold isExpired expiration
  rw [tagValue_none h]
  rfl

example : ∀ v r, (c!"expiration" :: v :: r) ∉ note.tags := by
  intro v r h
  simp [note] at h

/-- C27: a value with any character other than digits, white space or a sign never makes an event expire. -/
theorem C27_malformed {e : Event} {v : Bytes} {c : UInt8} (hf : FirstTag e.tags (c!"expiration") v)
    (hc : c ∈ v) (h1 : Num.isDigit c = false) (h2 : Num.isSpace c = false) (h3 : c ≠ 0x2d) (h4 : c ≠ 0x2b)
    (now : Int) : isExpired e now = false := by
  unfold isExpired expiration
  rw [tagValue_of_first hf]
  have := scan_stop hc h1 h2 h3 h4
  simp [this]

example : FirstTag [[c!"expiration", c!"12x4"]] (c!"expiration") (c!"12x4") ∧ (0x78 : UInt8) ∈ c!"12x4" :=
  ⟨tagValue_iff.1 (by decide), by decide⟩

/-- C27: once expired, always expired. -/
theorem C27_monotone {e : Event} {now later : Int} (h : isExpired e now = true) (hl : now ≤ later) :
    isExpired e later = true := by
  unfold isExpired at *
  split at h
  · simp at h
  · rename_i hz
    rw [if_neg hz]
    simp only [decide_eq_true_eq] at h ⊢
    omega

/-- C27 fails at the expiration time itself and for the value 0: the event is still served at the second
at which NIP-40 says it is expired, and `expiration 0` (or any non-number) never expires. -/
theorem C27_boundary_refuted :
    (∃ e : Event, ∃ v : Bytes, FirstTag e.tags (c!"expiration") v ∧ Decimal v ∧
      isExpired e (Num.natOf v) = false) ∧
    (∃ e : Event, ∃ v : Bytes, FirstTag e.tags (c!"expiration") v ∧ Decimal v ∧
      ∀ now, isExpired e now = false) := by
  refine ⟨⟨{ note with tags := [[c!"expiration", c!"1700000000"]] }, c!"1700000000",
    tagValue_iff.1 (by decide), ⟨by decide, by decide⟩, by decide⟩,
    ⟨{ note with tags := [[c!"expiration", c!"0"]] }, c!"0",
    tagValue_iff.1 (by decide), ⟨by decide, by decide⟩, ?_⟩⟩
  intro now
  unfold isExpired
  rw [if_pos (by decide)]

/-! ## C28 -/

/-- C28 (part): whenever the sum of clock and allowance is an `int64_t`, a timestamp is accepted iff it is
at most the allowance ahead of the clock. -/
theorem C28_window_partial {now maxFuture t : Int} (h : isInt64 (now + maxFuture)) :
    validateTimestamp now t maxFuture = .ok (decide (t ≤ now + maxFuture)) := by
  unfold validateTimestamp; rw [if_pos h]

example : isInt64 (1700000000 + 900) ∧ validateTimestamp 1700000000 1700000901 900 = .ok false := by decide

/-- C28 fails when the sum overflows (e.g. "no limit" expressed as the largest allowance): undefined
behaviour for every positive clock value. -/
theorem C28_overflow_refuted {now : Int} (h : 0 < now) (t : Int) :
    validateTimestamp now t (2 ^ 63 - 1) = .ub := by
  unfold validateTimestamp
  rw [if_neg (by unfold isInt64; omega)]

/-! ## C29 -/

/-- C29 (part; missing: a clock and a limit whose sum is out of range, see `C29_overflow_refuted`): full validation accepts exactly the events that are not too far in the future, not expired, have
an id equal to the hash of their preimage, a valid public key and a signature that verifies (when the time
sum does not overflow and the preimage can be built). -/
theorem C29_accepts_iff_partial {C : Crypto} (hC : CryptoOK C) {b : Build} {now maxFuture : Int} {e : Event}
    (hid : e.id.length = 32) (ho : isInt64 (now + maxFuture)) :
    (validateFull C b now maxFuture e).1 = .ok () ↔
      NotTooNew now maxFuture e ∧ isExpired e now = false ∧ ∃ t, serialize b e = .ok t ∧ e.id = C.sha256 t ∧
        C.validPub e.pubkey = true ∧ C.verify e.pubkey e.id e.sig = true := by
  rw [← C19_verify_iff hC hid]
  unfold validateFull
  rw [C28_window_partial ho]
  unfold NotTooNew
  by_cases h1 : e.createdAt ≤ now + maxFuture
  · simp only [h1, decide_true, true_and]
    cases h2 : isExpired e now with
    | true => simp
    | false =>
      simp only [Bool.false_eq_true, if_false, true_and]
      cases h3 : computeId C b e with
      | ub =>
        have : verify C b e = .ub := by unfold verify; rw [h3]; rfl
        simp [this]
      | err x =>
        have : verify C b e = .err x := by unfold verify; rw [h3]; rfl
        simp [this]
      | ok t =>
        have hl : t.id.length = 32 := by
          unfold computeId at h3
          rw [Res.bind_eq_ok] at h3
          obtain ⟨s, -, h3⟩ := h3
          simp only [Res.ok.injEq] at h3
          subst h3
          exact hC.hash s
        simp only
        split
        · rename_i hm
          have hne : e.id ≠ t.id := fun h => hm ((memcmp_zero_iff _ _ (by rw [hid, hl])).2 h)
          have : verify C b e = .err .invalidEvent := by
            unfold verify; rw [h3]
            simp only [Res.bind_ok]
            rw [if_pos (fun h => hne ((Hex.ctMemcmp_iff (by rw [hid, hl])).1 h))]
          simp [this]
        · cases h4 : verify C b e <;> simp
  · simp [h1]

/-- C29 (part; missing as above): the first failing requirement is the one reported, with its field name. -/
theorem C29_first_failure_partial {C : Crypto} (hC : CryptoOK C) {b : Build} {now maxFuture : Int} {e : Event}
    {s : Bytes} (hid : e.id.length = 32) (ho : isInt64 (now + maxFuture)) (hs : serialize b e = .ok s) :
    (¬ NotTooNew now maxFuture e →
      validateFull C b now maxFuture e = (.err (.relay .futureEvent), c!"created_at")) ∧
    (NotTooNew now maxFuture e → isExpired e now = true →
      validateFull C b now maxFuture e = (.err (.relay .expiredEvent), c!"expiration")) ∧
    (NotTooNew now maxFuture e → isExpired e now = false → e.id ≠ C.sha256 s →
      validateFull C b now maxFuture e = (.err (.relay .idMismatch), c!"id")) ∧
    (NotTooNew now maxFuture e → isExpired e now = false → e.id = C.sha256 s →
      ¬ (C.validPub e.pubkey = true ∧ C.verify e.pubkey e.id e.sig = true) →
      validateFull C b now maxFuture e = (.err (.relay .sigMismatch), c!"sig")) := by
  unfold validateFull NotTooNew
  rw [C28_window_partial ho]
  have hcid : computeId C b e = .ok { e with id := C.sha256 s } := by unfold computeId; rw [hs]; rfl
  refine ⟨fun h => by simp [h], fun h1 h2 => by simp [h1, h2], fun h1 h2 h3 => ?_, fun h1 h2 h3 h4 => ?_⟩
  · simp only [h1, decide_true, h2, Bool.false_eq_true, if_false, hcid]
    rw [if_pos (fun h => h3 ((memcmp_zero_iff _ _ (by rw [hid]; exact (hC.hash s).symm)).1 h))]
  · simp only [h1, decide_true, h2, Bool.false_eq_true, if_false, hcid]
    rw [if_neg (by
      intro hn; exact hn ((memcmp_zero_iff _ _ (by rw [hid]; exact (hC.hash s).symm)).2 h3))]
    unfold verify
    simp only [hcid, Res.bind_ok]
    rw [if_neg (by
      intro hn; exact hn ((Hex.ctMemcmp_iff (by rw [hid]; exact (hC.hash s).symm)).2 h3))]
    by_cases hp : C.validPub e.pubkey = true
    · have hv : C.verify e.pubkey e.id e.sig = false := by
        cases hh : C.verify e.pubkey e.id e.sig with
        | true => exact absurd ⟨hp, hh⟩ h4
        | false => rfl
      simp [hp, hv]
    · simp [hp]

/-- C29 fails when the configured limit is too large for the clock: the sum of the two overflows and validation is undefined for every
event. -/
theorem C29_overflow_refuted (C : Crypto) (b : Build) {now : Int} (hn : 0 < now) (e : Event) :
    validateFull C b now (2 ^ 63 - 1) e = (.ub, []) := by
  have h : validateTimestamp now e.createdAt (2 ^ 63 - 1) = .ub := by
    unfold validateTimestamp
    rw [if_neg (by unfold isInt64; omega)]
  unfold validateFull
  rw [h]

example : (validateFull toyCrypto .plain 1700000000 900 (toyEvent (c!"a"))).1 = .ok () ∧
    (validateFull toyCrypto .plain 1700000000 900 note) = (.err (.relay .idMismatch), c!"id") := by
  decide +kernel

/-! ## C84: validators -/

/-- C84: the hex validators accept exactly 64 (respectively 1 to 64) lower-case hex digits, the
subscription-id validator exactly 1 to 64 printable ASCII characters. -/
theorem C84_validators (s : Bytes) :
    (validateHex64 s = true ↔ s.length = 64 ∧
      ∀ c ∈ s, (0x30 ≤ c.toNat ∧ c.toNat ≤ 0x39) ∨ (0x61 ≤ c.toNat ∧ c.toNat ≤ 0x66)) ∧
    (validateHexPrefix s = true ↔ (1 ≤ s.length ∧ s.length ≤ 64) ∧
      ∀ c ∈ s, (0x30 ≤ c.toNat ∧ c.toNat ≤ 0x39) ∨ (0x61 ≤ c.toNat ∧ c.toNat ≤ 0x66)) ∧
    (validateSubId s = true ↔ (1 ≤ s.length ∧ s.length ≤ 64) ∧ ∀ c ∈ s, 32 ≤ c.toNat ∧ c.toNat ≤ 126) := by
  have hsub : ∀ c : UInt8, (!(decide (c < 32) || decide (c > 126))) = true ↔ 32 ≤ c.toNat ∧ c.toNat ≤ 126 := by
    intro c
    simp only [Bool.not_eq_true', Bool.or_eq_false_iff, decide_eq_false_iff_not, UInt8.lt_iff_toNat_lt,
      gt_iff_lt]
    rw [show (32 : UInt8).toNat = 32 from rfl, show (126 : UInt8).toNat = 126 from rfl]
    omega
  refine ⟨?_, ?_, ?_⟩
  · unfold validateHex64
    simp only [Bool.and_eq_true, decide_eq_true_eq, List.all_eq_true, lowHex_iff]
  · unfold validateHexPrefix
    simp only [Bool.and_eq_true, Bool.not_eq_true', Bool.or_eq_false_iff, decide_eq_false_iff_not,
      List.all_eq_true, lowHex_iff]
    constructor
    · rintro ⟨⟨h1, h2⟩, h3⟩; exact ⟨⟨by omega, by omega⟩, h3⟩
    · rintro ⟨⟨h1, h2⟩, h3⟩; exact ⟨⟨by omega, by omega⟩, h3⟩
  · unfold validateSubId
    simp only [Bool.and_eq_true, List.all_eq_true, hsub]
    simp only [Bool.not_eq_true', Bool.or_eq_false_iff, decide_eq_false_iff_not]
    constructor
    · rintro ⟨⟨h1, h2⟩, h3⟩; exact ⟨⟨by omega, by omega⟩, h3⟩
    · rintro ⟨⟨h1, h2⟩, h3⟩; exact ⟨⟨by omega, by omega⟩, h3⟩

example : validateSubId (c!"sub 1") = true ∧ validateSubId [0x41, 0x7f] = false ∧
    validateHexPrefix (c!"00ff") = true ∧ validateHexPrefix (c!"00FF") = false := by decide

/-- C84: the address validator accepts exactly `<digits>:<64 lower-case hex digits>:<anything>`. -/
theorem C84_address (a : Bytes) : validateAddress a = true ↔
    ∃ kind pk dv, a = kind ++ c!":" ++ pk ++ c!":" ++ dv ∧ Decimal kind ∧ validateHex64 pk = true := by
  unfold validateAddress
  constructor
  · intro h
    split at h
    · simp at h
    · rename_i kind rest hs
      split at h
      · simp at h
      · rename_i hk
        split at h
        · simp at h
        · rename_i hd
          split at h
          · simp at h
          · rename_i pk dv hs2
            obtain ⟨rfl, -⟩ := strchr_iff.1 hs
            obtain ⟨rfl, -⟩ := strchr_iff.1 hs2
            refine ⟨kind, pk, dv, by simp, ⟨hk, ?_⟩, h⟩
            intro c hc
            have hd : kind.all Num.isDigit = true := by simpa using hd
            exact (Num.isDigit_iff c).1 (List.all_eq_true.1 hd c hc)
  · rintro ⟨kind, pk, dv, rfl, hk, hp⟩
    have hd : kind.all Num.isDigit = true :=
      List.all_eq_true.2 fun c hc => (Num.isDigit_iff c).2 (hk.2 c hc)
    have hp' := hp
    unfold validateHex64 at hp'
    simp only [Bool.and_eq_true] at hp'
    have n1 : (0x3a : UInt8) ∉ kind := fun hm => colon_not_digit (List.all_eq_true.1 hd _ hm) rfl
    have n2 : (0x3a : UInt8) ∉ pk := fun hm => colon_not_lowHex (List.all_eq_true.1 hp'.2 _ hm) rfl
    simp only [List.append_assoc, List.cons_append, List.nil_append]
    rw [strchr_append n1]
    simp only [hk.1, if_false, hd, Bool.not_true, Bool.false_eq_true]
    rw [strchr_append n2]
    exact hp

example : validateAddress (address article (c!"x:y")) = true := by decide +kernel

/-! ## C85: binary tag values -/

/-- The binary values a list of tags carries under `name`, in tag order: one for each tag whose value is
the hex text of 32 bytes. -/
inductive BinValues (name : Bytes) : List (List Bytes) → List Bytes → Prop
  | nil : BinValues name [] []
  | take (b : Bytes) (hb : b.length = 32) (more ts out) (h : BinValues name ts out) :
      BinValues name ((name :: Hex.Spec.hexText b :: more) :: ts) (b :: out)
  | skip (t ts out) (hn : ∀ b more, b.length = 32 → t ≠ name :: Hex.Spec.hexText b :: more)
      (h : BinValues name ts out) : BinValues name (t :: ts) out

theorem selected_eq {name : Bytes} {t : List Bytes} {v : Bytes} :
    selected name t = some v ↔ validateHex64 v = true ∧ ∃ more, t = name :: v :: more := by
  unfold selected
  split
  · rename_i n w r
    constructor
    · intro h
      split at h
      · rename_i hc
        simp only [Option.some.injEq] at h
        subst h
        exact ⟨hc.2, r, by rw [hc.1]⟩
      · simp at h
    · rintro ⟨h, m, hm⟩
      simp only [List.cons.injEq] at hm
      rw [if_pos ⟨hm.1, hm.2.1 ▸ h⟩, hm.2.1]
  · rename_i hne
    simp only [reduceCtorEq, false_iff, not_and, not_exists]
    intro _ m hm
    exact hne _ _ _ hm

/-- C85: extracting the binary `e` (or `p`) values returns exactly the values of the tags that hold 32
bytes of lower-case hex, in order; nothing else and nothing missing. -/
theorem C85_exact (lax0x : Bool) (name : Bytes) (e : Event) :
    BinValues name e.tags (tagsBinary lax0x name e) := by
  unfold tagsBinary
  rw [binLoop_eq lax0x name e.tags _ (Nat.le_refl _)]
  induction e.tags with
  | nil => exact .nil
  | cons t ts ih =>
    rw [List.filterMap_cons]
    cases hs : selected name t with
    | none =>
      simp only [Option.bind_none]
      refine .skip t ts _ ?_ ih
      intro b more hb ht
      have := (selected_eq (name := name) (t := t) (v := Hex.Spec.hexText b)).2
        ⟨validateHex64_hexText hb, more, ht⟩
      rw [hs] at this
      simp at this
    | some v =>
      obtain ⟨hv, more, rfl⟩ := selected_eq.1 hs
      obtain ⟨b, hb⟩ := hexStringToBytes_some lax0x hv
      simp only [Option.bind_some, hb]
      obtain ⟨h1, rfl⟩ := (hexStringToBytes_iff lax0x hv).1 hb
      exact .take b h1 more ts _ ih

example : tagsBinary false (c!"p") { note with tags := [[c!"p", Hex.hexEncode (List.replicate 32 9)],
    [c!"p", c!"zz"], [c!"e", Hex.hexEncode (List.replicate 32 8)]] } = [List.replicate 32 9] := by
  decide +kernel

/-! ## C86: iteration -/

/-- Calling `next` `n` times, collecting the tags returned. -/
def collect : Nat → Iter → List (List Bytes)
  | 0, _ => []
  | n + 1, it => match it.next with
      | (none, _) => []
      | (some t, it') => t :: collect n it'

theorem collect_drop (e : Event) : ∀ (n i : Nat), collect n ⟨e, i⟩ = (e.tags.drop i).take n := by
  intro n
  induction n with
  | zero => simp [collect]
  | succ n ih =>
    intro i
    unfold collect Iter.next
    cases h : e.tags[i]? with
    | none =>
      have : e.tags.length ≤ i := by simpa using h
      simp [h, this]
    | some t =>
      simp only [h]
      rw [ih (i + 1)]
      obtain ⟨hl, rfl⟩ := List.getElem?_eq_some_iff.1 h
      rw [List.drop_eq_getElem_cons hl, List.take_succ_cons]

/-- C86: iterating from a fresh iterator returns every tag exactly once and in order, then NULL for ever. -/
theorem C86_iterates (e : Event) (n : Nat) :
    collect n (Iter.init e) = e.tags.take n ∧ (n ≥ e.tags.length → collect n (Iter.init e) = e.tags) := by
  have := collect_drop e n 0
  simp only [List.drop_zero] at this
  refine ⟨this, fun h => ?_⟩
  rw [show Iter.init e = ⟨e, 0⟩ from rfl, this, List.take_of_length_le h]

example : collect 5 (Iter.init note) = note.tags := by decide

/-! ## C87: canonical serialisation into a caller's buffer -/

/-- C87: with a large enough buffer the canonical text is exactly the text whose hash is the id; with any
smaller buffer the call fails, nothing is written and the needed length is reported, so that retrying with
one byte more than that length succeeds. -/
theorem C87_canonical (C : Crypto) (td : Int → Int) (fr : Int → Bytes) (e : Event) (size : Nat)
    (hs : size ≠ 0) : ∃ t : Bytes,
    computeId C (.cjson td fr) e = .ok { e with id := C.sha256 t } ∧
    (serializeCanonical (.cjson td fr) e size).2 = some t.length ∧
    (size > t.length → (serializeCanonical (.cjson td fr) e size).1 = .ok t) ∧
    (size ≤ t.length → (serializeCanonical (.cjson td fr) e size).1 = .err (.relay .bufferTooSmall)) ∧
    (serializeCanonical (.cjson td fr) e (t.length + 1)).1 = .ok t := by
  refine ⟨Json.print false 0 (idTree td fr e), rfl, ?_, ?_, ?_, ?_⟩
  · unfold serializeCanonical; simp only [hs, if_false]; split <;> rfl
  · intro h; unfold serializeCanonical; simp only [hs, if_false]; rw [if_neg (by omega)]
  · intro h; unfold serializeCanonical; simp only [hs, if_false]; rw [if_pos (by omega)]
  · unfold serializeCanonical; simp only [Nat.succ_ne_zero, if_false]; rw [if_neg (by omega)]

end Nostr.RelayProto.Props
