import Verif.Nip13.Lemmas

/-! # Property theorems: C11, C12, C13, C81, C82 -/

namespace Nostr.Nip13.Props
open Nostr Nostr.Event Nostr.Nip13 Spec

/-! ## C11 -/

/-- C11: the difficulty is the number of leading zero bits. -/
theorem C11_leading_zeros (id : Bytes) (h : id.length = 32) (k : Nat) :
    difficulty id = k ↔ k ≤ 256 ∧ (∀ i < k, bitAt id i = false) ∧ (k < 256 → bitAt id k = true) := by
  obtain ⟨h1, h2, h3⟩ := difficulty_spec id
  rw [h] at h1 h3
  constructor
  · rintro rfl
    exact ⟨h1, h2, h3⟩
  · rintro ⟨g1, g2, g3⟩
    have ha := difficulty_ge (id := id) (k := k) (by omega) g2
    rcases Nat.lt_or_ge k (difficulty id) with hl | hl
    · have := g3 (by omega)
      rw [h2 k hl] at this
      simp at this
    · omega

example : difficulty (0 :: 0x1f :: List.replicate 30 0xff) = 11 := by decide +kernel

/-! ## C12 -/

/-- A miner with a toy hash that likes texts containing the digit 7. -/
def toyEnv : Env where
  cfg := none
  crypto := ⟨fun t => (if t.contains 0x37 then 0 else 255) :: List.replicate 31 0, fun _ => none, fun _ _ _ => none,
    fun _ => false, fun _ _ _ => false⟩
  build := .cjson id fun _ => []
  clock := fun _ => 5

/-- A short event. -/
def toyNote : Event := { zero with content := some (List.replicate 31 0x78) }

/-- The library's check accepts an event with enough zero bits whose nonce tag commits to the target. -/
theorem verify_of_tags {e0 e : Event} {target : Int} {nonce : Nat} (hpos : 1 ≤ target) (ht : target < 2 ^ 31)
    (ht2 : NonceTags e0.tags e.tags nonce target) (hd : (difficulty e.id : Int) ≥ target) : verifyPow e target = .ok () := by
  have hat : Num.atoi (Num.decInt target) = target := by
    unfold Num.atoi
    have := Num.strtol_decInt (i := target) (rest := []) (by omega) (by omega) (by simp)
    rw [List.append_nil] at this
    rw [this]
    unfold Num.toInt32
    simp only
    omega
  have key : ∀ (pre : List (List Bytes)) (rest : List Bytes) (post : List (List Bytes)),
      e.tags = pre ++ (c!"nonce" :: Num.decNat nonce :: Num.decInt target :: rest) :: post →
      (∀ t ∈ pre, t.head? ≠ some (c!"nonce")) → verifyPow e target = .ok () := by
    intro pre rest post h1 h2
    unfold verifyPow
    rw [if_neg (by omega), h1, findNonce_at h2 rfl]
    simp only
    rw [show (pre ++ (c!"nonce" :: Num.decNat nonce :: Num.decInt target :: rest) :: post).getD
      pre.length [] = c!"nonce" :: Num.decNat nonce :: Num.decInt target :: rest by simp]
    rw [if_neg (by simp), if_neg (by omega), if_neg]
    rintro ⟨-, -, h3⟩
    simp only [List.getD_cons_succ, List.getD_cons_zero, hat] at h3
    omega
  rcases ht2 with ⟨t1, t2⟩ | ⟨pre, v, rest, post, t1, t2, t3⟩
  · exact key _ [] [] t2 t1
  · exact key pre _ post t3 t2

/-- C12: for every event, target, iteration bound, hash function and clock: if mining reports success, the
event is a mined version of the original one (`Mined`: id computed from the event with its final nonce tag,
at least `target` leading zero bits, the nonce tag commits to the target, every other tag and field except
the time unchanged), its time is a clock reading, and the library's own proof-of-work check accepts it. -/
theorem C12_mining_sound (E : Env) {target : Int} (ht : target < 2 ^ 31) {maxIter fuel : Nat} {e e' : Event}
    (h : mine E target maxIter fuel e = some (.ok e')) :
    ∃ k, Mined E.crypto E.build e target (k % 2 ^ 64) e' ∧ e'.createdAt = E.clock k ∧
      (maxIter = 0 ∨ k < maxIter) ∧ verifyPow e' target = .ok () := by
  unfold mine at h
  split at h
  · simp at h
  rename_i hpos
  split at h
  · rename_i e1 he
    obtain ⟨a1, a2⟩ := ensureNonce_ok (by omega) he
    obtain ⟨k, m1, m2, m3, m4⟩ := mineLoop_sound E (by omega) maxIter e fuel 0 e1 e' a1 a2 h
    exact ⟨k, m1, m2, m3, verify_of_tags (by omega) ht m1.tags m4⟩
  · simp at h
  · simp at h

example : ∃ e', mine toyEnv 3 100 20 toyNote = some (.ok e') := by
  have h : (mine toyEnv 3 100 20 toyNote).any Res.isOk = true := by decide +kernel
  cases hm : mine toyEnv 3 100 20 toyNote with
  | none => rw [hm] at h; simp at h
  | some r =>
    cases r with
    | ok e => exact ⟨e, rfl⟩
    | err x => rw [hm] at h; simp [Res.isOk] at h
    | ub => rw [hm] at h; simp [Res.isOk] at h

/-- C12, the other outcome: "not found" is reported only with a positive iteration bound, and only after
that many nonces have been tried, each giving an id that misses the target. -/
theorem C12_not_found (E : Env) {target : Int} {maxIter fuel : Nat} {e : Event}
    (h : mine E target maxIter fuel e = some (.err .notFound)) :
    0 < maxIter ∧ ∀ k < maxIter, ∃ ek : Event, (∃ t, serialize E.build ek = .ok t ∧ ek.id = E.crypto.sha256 t) ∧
      NonceTags e.tags ek.tags (k % 2 ^ 64) target ∧ ek.createdAt = E.clock k ∧
      ek.pubkey = e.pubkey ∧ ek.kind = e.kind ∧ ek.content = e.content ∧
      (difficulty ek.id : Int) < target := by
  unfold mine at h
  split at h
  · simp at h
  split at h
  · rename_i e1 he
    obtain ⟨a1, a2⟩ := ensureNonce_ok (by omega) he
    obtain ⟨g1, g2⟩ := mineLoop_notFound E (by omega) maxIter e fuel 0 e1 a1 a2 h
    exact ⟨g1, fun k hk => g2 k (by omega) hk⟩
  · rename_i x he
    unfold ensureNonce at he
    split at he
    · simp at he
    · rw [addNonce_err he] at h
      simp at h
  · simp at h

example : mine toyEnv 9 3 20 toyNote = some (.err .notFound) := by decide +kernel

/-! ## C13 -/

/-- C13: for every number of workers, every interleaving of their steps, every clock, every hash and wherever memory runs out: when
the parallel miner reports success, the event delivered to the caller is a mined version of the original
one with the nonce of exactly one worker, namely the only one that believes to have found, and the library's own
proof-of-work check accepts it. -/
theorem C13_one_winner {cfg : Option Config.Config} {C : Crypto} {b : Build} {target : Int} (ht : 1 ≤ target)
    {n maxIter : Nat} {e0 e1 : Event} {s : St} (h0 : ensureNonce cfg e0 target = .ok e1)
    (hr : Steps cfg C b target n maxIter (start e1) s) (hs : Success n s) :
    ∃ i < n, (s.workers i).found = true ∧ (∀ j < n, (s.workers j).found = true → j = i) ∧
      Mined C b e0 target (s.workers i).result s.event ∧ (target < 2 ^ 31 → verifyPow s.event target = .ok ()) := by
  obtain ⟨a1, a2⟩ := ensureNonce_ok (by omega) h0
  have inv := inv_steps (by omega) (inv_start C b a1 a2) hr
  obtain ⟨i, hi, hf⟩ := hs.2.2.2
  refine ⟨i, hi, hf, fun j _ hj => inv.one j i hj hf, ?_⟩
  obtain ⟨⟨g1, g2⟩, g3⟩ := inv.win i hf
  exact ⟨⟨g1, zero_of_ge g3, g2, inv.same.1, inv.same.2, inv.same.3, inv.same.4⟩, fun h => verify_of_tags ht h g2 g3⟩

/-- C13, stability: once a worker has found, no step of any other worker (or of the main thread) changes
the event, the winner's nonce or the verdict. -/
theorem C13_never_overwritten {cfg : Option Config.Config} {C : Crypto} {b : Build} {target : Int} (ht : 1 ≤ target)
    {n maxIter : Nat} {e0 e1 : Event} {s s' : St} (h0 : ensureNonce cfg e0 target = .ok e1)
    (hr : Steps cfg C b target n maxIter (start e1) s) {i : Nat} (hf : (s.workers i).found = true)
    (hs : Steps cfg C b target n maxIter s s') :
    s'.event = s.event ∧ (s'.workers i).found = true ∧ (s'.workers i).result = (s.workers i).result := by
  obtain ⟨a1, a2⟩ := ensureNonce_ok (by omega) h0
  have inv := inv_steps (by omega) (inv_start C b a1 a2) hr
  clear hr h0
  induction hs with
  | refl => exact ⟨rfl, hf, rfl⟩
  | @tail t u hst hstep ih =>
    have invt := inv_steps (by omega) inv hst
    obtain ⟨i1, i2, i3⟩ := ih
    have quiet := fun j => invt.quiet i j i2
    have key : u.event = t.event ∧ (u.workers i).found = true ∧ (u.workers i).result = (t.workers i).result := by
      cases hstep with
      | setNonce j _ _ hp _ => have := quiet j; rw [hp] at this; simp [Pc.writes] at this
      | setTime j _ _ hp => have := quiet j; rw [hp] at this; simp [Pc.writes] at this
      | setId j _ _ hp _ => have := quiet j; rw [hp] at this; simp [Pc.writes] at this
      | win j _ hp _ => have := quiet j; rw [hp] at this; simp [Pc.writes] at this
      | nonceMemory j _ _ hp _ => have := quiet j; rw [hp] at this; simp [Pc.writes] at this
      | idMemory j _ _ => refine ⟨rfl, ?_, ?_⟩ <;> simp only [set_workers] <;> split <;> simp_all
      | create _ _ => exact ⟨rfl, i2, rfl⟩
      | createFails _ _ => exact ⟨rfl, i2, rfl⟩
      | stop j _ _ _ => refine ⟨rfl, ?_, ?_⟩ <;> simp only [set_workers] <;> split <;> simp_all
      | goOn j _ _ _ _ => refine ⟨rfl, ?_, ?_⟩ <;> simp only [set_workers] <;> split <;> simp_all
      | acquire j _ _ _ => refine ⟨rfl, ?_, ?_⟩ <;> simp only [set_workers] <;> split <;> simp_all
      | recheck j _ _ => refine ⟨rfl, ?_, ?_⟩ <;> simp only [set_workers] <;> split <;> simp_all
      | nonceFails j _ _ _ _ => refine ⟨rfl, ?_, ?_⟩ <;> simp only [set_workers] <;> split <;> simp_all
      | idFails j _ _ _ _ => refine ⟨rfl, ?_, ?_⟩ <;> simp only [set_workers] <;> split <;> simp_all
      | lose j _ _ _ => refine ⟨rfl, ?_, ?_⟩ <;> simp only [set_workers] <;> split <;> simp_all
      | unlockLeave j _ _ => refine ⟨rfl, ?_, ?_⟩ <;> simp only [set_workers] <;> split <;> simp_all
      | unlockAgain j _ _ => refine ⟨rfl, ?_, ?_⟩ <;> simp only [set_workers] <;> split <;> simp_all
    exact ⟨key.1.trans i1, key.2.1, key.2.2.trans i3⟩

/-! Non-vacuity: one worker, a hash that is all zero. -/

def zeroCrypto : Crypto :=
  ⟨fun _ => List.replicate 32 0, fun _ => none, fun _ _ _ => none, fun _ => false, fun _ _ _ => false⟩

example : ∃ e1 s, ensureNonce none toyNote 3 = .ok e1 ∧
    Steps none zeroCrypto (.cjson id fun _ => []) 3 1 0 (start e1) s ∧ Success 1 s := by
  have h0 : ensureNonce none toyNote 3 = .ok { toyNote with tags := [[c!"nonce", c!"0", c!"3"]] } := by
    decide +kernel
  have h1 := Steps.tail (.refl (start { toyNote with tags := [[c!"nonce", c!"0", c!"3"]] }))
    (Step.create (cfg := none) (C := zeroCrypto) (b := .cjson id fun _ => []) (target := 3) (n := 1)
      (maxIter := 0) _ (by decide) rfl)
  have h2 := h1.tail (.goOn _ 0 (by decide) rfl rfl (Or.inl rfl))
  have h3 := h2.tail (.acquire _ 0 (by decide) rfl rfl)
  have h4 := h3.tail (.recheck _ 0 (by decide) rfl)
  have h5 := h4.tail (.setNonce _ 0 { toyNote with tags := [[c!"nonce", c!"0", c!"3"]] } (by decide) rfl
    (by decide +kernel))
  have h6 := h5.tail (.setTime _ 0 7 (by decide) rfl)
  have h7 := h6.tail (.setId _ 0 { toyNote with tags := [[c!"nonce", c!"0", c!"3"]], createdAt := 7 }
    (by decide) rfl rfl)
  have h8 := h7.tail (.win _ 0 (by decide) rfl (by decide +kernel))
  have h9 := h8.tail (.unlockLeave _ 0 (by decide) rfl)
  refine ⟨_, _, h0, h9, rfl, rfl, ?_, 0, by decide, rfl⟩
  intro i hi
  have : i = 0 := by omega
  subst this
  rfl

/-! ## C81: what proof-of-work verification guarantees -/

/-- C81 (part): verification succeeds exactly if the first nonce tag has a nonce, the id has at least
`min` leading zero bits, and at least as many as the tag commits to (if it commits to a positive number). -/
theorem C81_verify_iff_partial (e : Event) (min : Int) (hid : e.id.length = 32) :
    verifyPow e min = .ok () ↔ 1 ≤ min ∧ min ≤ 256 ∧ ZeroBits e.id min.toNat ∧
      ∃ pre t post, e.tags = pre ++ t :: post ∧ (∀ u ∈ pre, u.head? ≠ some (c!"nonce")) ∧
        t.head? = some (c!"nonce") ∧ 2 ≤ t.length ∧
        ∀ c, t[2]? = some c → (Num.atoi c ≤ 256 ∧ ZeroBits e.id (Num.atoi c).toNat) := by
  obtain ⟨d1, d2, d3⟩ := difficulty_spec e.id
  rw [hid] at d1 d3
  have ge : ∀ k : Int, k ≤ (difficulty e.id : Int) ↔ k ≤ 256 ∧ ZeroBits e.id k.toNat := by
    intro k
    constructor
    · intro h
      exact ⟨by omega, zero_of_ge h⟩
    · rintro ⟨h1, h2⟩
      have := difficulty_ge (id := e.id) (k := k.toNat) (by omega) h2
      omega
  unfold verifyPow
  constructor
  · intro h
    split at h
    · simp at h
    rename_i hmin
    split at h
    · simp at h
    rename_i i hf
    obtain ⟨pre, t, post, h1, h2, h3, h4⟩ := findNonce_some hf
    have hg : e.tags.getD i [] = t := by rw [h1, ← h2]; simp
    simp only [hg] at h
    split at h
    · simp at h
    rename_i hl
    split at h
    · simp at h
    rename_i hd
    split at h
    · simp at h
    rename_i hc
    have hm := (ge min).1 (by omega)
    refine ⟨by omega, hm.1, hm.2, pre, t, post, h1, h4, by simpa [isNonce] using h3, by omega, ?_⟩
    intro c hcc
    have hl3 : 3 ≤ t.length := by
      have := (List.getElem?_eq_some_iff.1 hcc).1
      omega
    have hgd : t.getD 2 [] = c := by simp [hcc]
    rw [hgd] at hc
    apply (ge _).1
    by_cases hp : Num.atoi c > 0
    · by_cases hq : (difficulty e.id : Int) < Num.atoi c
      · exact absurd ⟨hl3, hp, hq⟩ hc
      · omega
    · omega
  · rintro ⟨h1, h2, h3, pre, t, post, h4, h5, h6, h7, h8⟩
    have hd := (ge min).2 ⟨h2, h3⟩
    rw [if_neg (by omega), h4, findNonce_at h5 h6]
    simp only
    rw [show (pre ++ t :: post).getD pre.length [] = t by simp, if_neg (by omega), if_neg (by omega), if_neg]
    rintro ⟨g1, g2, g3⟩
    have hc : t[2]? = some (t.getD 2 []) := by
      rw [List.getD_eq_getElem?_getD, List.getElem?_eq_getElem (by omega)]; rfl
    have := (ge _).2 (h8 _ hc)
    omega

example : ∃ e : Event, e.id.length = 32 ∧ verifyPow e 20 = .ok () :=
  ⟨{ zero with tags := [[c!"nonce", c!"1", c!"20"]] }, rfl, by decide +kernel⟩

/-- C81 fails: verification does not look at the content at all. An event whose id is not the hash of its
content passes for the maximal difficulty. -/
theorem C81_id_not_checked_refuted (C : Crypto) (b : Build) (h : ∀ t, C.sha256 t ≠ List.replicate 32 0) :
    ∃ e : Event, verifyPow e 256 = .ok () ∧ ∀ t, serialize b e = .ok t → e.id ≠ C.sha256 t :=
  ⟨{ zero with tags := [[c!"nonce", c!"1", c!"256"]] }, by decide +kernel, fun t _ he => h t he.symm⟩

example : ∃ C : Crypto, ∀ t, C.sha256 t ≠ List.replicate 32 0 :=
  ⟨{ zeroCrypto with sha256 := fun _ => List.replicate 32 1 }, fun _ => (by decide : List.replicate 32 (1 : UInt8) ≠ List.replicate 32 0)⟩

/-! ## C82: memory safety of mining -/

/-- C82 fails: an event that already has a one-value nonce tag makes the miner write outside the tag's
value array. -/
theorem C82_short_tag_refuted (E : Env) {target : Int} (ht : 1 ≤ target) (maxIter fuel : Nat) :
    ∃ e : Event, e.tags = [[c!"nonce"]] ∧ mine E target maxIter (fuel + 1) e = some .ub := by
  refine ⟨{ zero with tags := [[c!"nonce"]] }, rfl, ?_⟩
  have hf : findNonce [[c!"nonce"]] = some 0 := by decide +kernel
  unfold mine
  rw [if_neg (by omega)]
  simp only [ensureNonce, hf]
  unfold mineLoop
  rw [if_pos (by omega)]
  simp only [addNonce, hf]
  rfl

/-- C82 (part): mining never leaves the tag arrays if the first nonce tag, when there is one, has at least
two values (given that computing ids is memory safe, see C80). -/
theorem C82_long_tag_partial (E : Env) {target : Int} {maxIter fuel : Nat} {e : Event}
    (hb : ∀ x : Event, computeId E.crypto E.build x ≠ .ub)
    (ht : ∀ i, findNonce e.tags = some i → 2 ≤ (e.tags.getD i []).length) :
    mine E target maxIter fuel e ≠ some .ub := by
  have loop : ∀ (fuel iter : Nat) (x : Event), target > 0 →
      (∃ i, findNonce x.tags = some i ∧ 2 ≤ (x.tags.getD i []).length) →
      mineLoop E target maxIter fuel iter x ≠ some .ub := by
    intro fuel
    induction fuel with
    | zero => intro iter x _ _; simp [mineLoop]
    | succ fuel ih =>
      intro iter x hpos hx
      obtain ⟨i, hi, hlen⟩ := hx
      obtain ⟨pre, t, post, h1, h2, h3, h4⟩ := findNonce_some hi
      have hg : x.tags.getD i [] = t := by rw [h1, ← h2]; simp
      rw [hg] at hlen
      match t, hlen, h1, h3, hg with
      | v0 :: v1 :: rest, _, h1, h3, hg =>
        have hu : addNonce E.cfg x (iter % 2 ^ 64) target = .ok ⟨x.id, x.pubkey, x.createdAt, x.kind, x.tags.set i
            (v0 :: Num.decNat (iter % 2 ^ 64) :: Num.decInt target :: rest.drop 1), x.content, x.sig⟩ := by
          unfold addNonce
          rw [hi]
          simp only [hg, updateNonce, if_pos hpos]
          rfl
        unfold mineLoop
        split
        · rw [hu]
          simp only
          split
          · rename_i e2 hc
            obtain ⟨t, -, c2, -⟩ := computeId_ok hc
            split
            · simp
            · refine ih _ _ hpos ?_
              subst c2
              simp only
              rw [h1, ← h2]
              have hv : v0 = c!"nonce" := by simpa [isNonce] using h3
              refine ⟨pre.length, ?_, ?_⟩
              · rw [show (pre ++ (v0 :: v1 :: rest) :: post).set pre.length
                  (v0 :: Num.decNat (iter % 2 ^ 64) :: Num.decInt target :: rest.drop 1) =
                  pre ++ (v0 :: Num.decNat (iter % 2 ^ 64) :: Num.decInt target :: rest.drop 1) :: post by simp]
                exact findNonce_at h4 (by simp [hv])
              · simp
          · simp
          · rename_i hc
            exact absurd hc (hb _)
        · simp
  unfold mine
  split
  · simp
  rename_i hpos
  split
  · rename_i e1 he
    apply loop _ _ _ (by omega)
    unfold ensureNonce at he
    split at he
    · rename_i i hi
      simp only [Res.ok.injEq] at he
      subst he
      exact ⟨i, hi, ht i hi⟩
    · rename_i hn
      obtain ⟨h1, -⟩ := addNonce_ok (by omega) he
      rcases h1 with ⟨g1, g2⟩ | ⟨pre, v, rest, post, g1, g2, g3⟩
      · exact ⟨e.tags.length, by rw [g2]; exact findNonce_at g1 rfl, by rw [g2]; simp⟩
      · exact ⟨pre.length, by rw [g3]; exact findNonce_at g2 rfl, by rw [g3]; simp⟩
  · simp
  · rename_i he
    exfalso
    unfold ensureNonce at he
    split at he
    · simp at he
    · rename_i hn
      unfold addNonce at he
      rw [hn] at he
      simp only at he
      generalize (if target > 0 then [c!"nonce", Num.decNat 0, Num.decInt target]
        else [c!"nonce", Num.decNat 0]) = v at he
      unfold addTag at he
      split at he
      · simp at he
      · split at he <;> simp at he

example : ∀ x : Event, computeId zeroCrypto (.cjson id fun _ => []) x ≠ .ub := by
  intro x; simp [computeId, serialize]

end Nostr.Nip13.Props
