import Verif.Nip13.Spec
import Verif.Event.Lemmas

/-! # Helper lemmas for proof of work -/

namespace Nostr.Nip13
open Nostr Nostr.Event Spec

/-! ## Difficulty -/

theorem zeroBits_table : ∀ n < 256, zeroBits (UInt8.ofNat n) ≤ 8 ∧
    (∀ i < zeroBits (UInt8.ofNat n), n.testBit (7 - i) = false) ∧
    (zeroBits (UInt8.ofNat n) < 8 → n.testBit (7 - zeroBits (UInt8.ofNat n)) = true) := by
  decide +kernel

theorem zeroBits_spec (b : UInt8) : zeroBits b ≤ 8 ∧
    (∀ i < zeroBits b, b.toNat.testBit (7 - i) = false) ∧
    (zeroBits b < 8 → b.toNat.testBit (7 - zeroBits b) = true) := by
  have := zeroBits_table b.toNat b.toNat_lt
  rwa [UInt8.ofNat_toNat] at this

theorem bitAt_lt (b : UInt8) (bs : Bytes) {i : Nat} (h : i < 8) : bitAt (b :: bs) i = b.toNat.testBit (7 - i) := by
  unfold bitAt
  rw [Nat.div_eq_of_lt h, Nat.mod_eq_of_lt h]
  rfl

theorem bitAt_add (b : UInt8) (bs : Bytes) (i : Nat) : bitAt (b :: bs) (8 + i) = bitAt bs i := by
  unfold bitAt
  rw [show (8 + i) / 8 = i / 8 + 1 by omega, show (8 + i) % 8 = i % 8 by omega]
  rfl

theorem difficulty_spec (bs : Bytes) : difficulty bs ≤ 8 * bs.length ∧ ZeroBits bs (difficulty bs) ∧
    (difficulty bs < 8 * bs.length → bitAt bs (difficulty bs) = true) := by
  induction bs with
  | nil => simp [difficulty, ZeroBits]
  | cons b bs ih =>
    obtain ⟨h1, h2, h3⟩ := zeroBits_spec b
    obtain ⟨g1, g2, g3⟩ := ih
    unfold difficulty
    rw [List.length_cons]
    split
    · rename_i hne
      refine ⟨by omega, ?_, ?_⟩
      · intro i hi
        rw [bitAt_lt _ _ (by omega)]
        exact h2 i hi
      · intro _
        rw [bitAt_lt _ _ (by omega)]
        exact h3 (by omega)
    · rename_i hne
      have he : zeroBits b = 8 := by omega
      refine ⟨by omega, ?_, ?_⟩
      · intro i hi
        rcases Nat.lt_or_ge i 8 with h8 | h8
        · rw [bitAt_lt _ _ h8]
          exact h2 i (by omega)
        · rw [show i = 8 + (i - 8) by omega, bitAt_add]
          exact g2 _ (by omega)
      · intro hl
        rw [bitAt_add]
        exact g3 (by omega)

/-! ## The nonce tag -/

theorem findNonce_some {tags : List (List Bytes)} {i : Nat} (h : findNonce tags = some i) :
    ∃ pre t post, tags = pre ++ t :: post ∧ pre.length = i ∧ isNonce t = true ∧
      ∀ t ∈ pre, t.head? ≠ some (c!"nonce") := by
  unfold findNonce at h
  rw [List.findIdx?_eq_some_iff_getElem] at h
  obtain ⟨hl, h1, h2⟩ := h
  refine ⟨tags.take i, tags[i], tags.drop (i + 1), ?_, by simp; omega, h1, ?_⟩
  · rw [← List.drop_eq_getElem_cons hl, List.take_append_drop]
  · intro t ht
    rw [List.mem_take_iff_getElem] at ht
    obtain ⟨j, hj, rfl⟩ := ht
    have := h2 j (by omega)
    simpa [isNonce] using this

theorem findNonce_none {tags : List (List Bytes)} (h : findNonce tags = none) :
    ∀ t ∈ tags, t.head? ≠ some (c!"nonce") := by
  unfold findNonce at h
  rw [List.findIdx?_eq_none_iff] at h
  intro t ht
  have := h t ht
  simpa [isNonce] using this

theorem findNonce_at {pre : List (List Bytes)} {t : List Bytes} {post : List (List Bytes)}
    (h1 : ∀ t ∈ pre, t.head? ≠ some (c!"nonce")) (h2 : t.head? = some (c!"nonce")) :
    findNonce (pre ++ t :: post) = some pre.length := by
  unfold findNonce
  rw [List.findIdx?_eq_some_iff_getElem]
  refine ⟨by simp, by simp [isNonce, h2], ?_⟩
  intro j hj
  rw [List.getElem_append_left hj]
  have := h1 _ (List.getElem_mem hj)
  simpa [isNonce] using this

theorem addNonce_ok {cfg : Option Config.Config} {e e' : Event} {nonce : Nat} {target : Int} (ht : target > 0)
    (h : addNonce cfg e nonce target = .ok e') :
    NonceTags e.tags e'.tags nonce target ∧ e' = { e with tags := e'.tags } := by
  unfold addNonce at h
  cases hf : findNonce e.tags with
  | none =>
    rw [hf] at h
    simp only [if_pos ht] at h
    unfold addTag at h
    split at h
    · simp at h
    · split at h
      · simp at h
      · simp only [Res.ok.injEq] at h
        subst h
        exact ⟨Or.inl ⟨findNonce_none hf, rfl⟩, rfl⟩
  | some i =>
    rw [hf] at h
    simp only at h
    obtain ⟨pre, t, post, h1, h2, h3, h4⟩ := findNonce_some hf
    rw [Res.bind_eq_ok] at h
    obtain ⟨t', ht', h⟩ := h
    have hg : e.tags.getD i [] = t := by
      rw [h1, ← h2]; simp
    rw [hg] at ht'
    unfold updateNonce at ht'
    match t, ht', h1, h3 with
    | v0 :: v1 :: rest, ht', h1, h3 =>
      simp only [if_pos ht, Res.ok.injEq] at ht' h
      subst ht' h
      have hv : v0 = c!"nonce" := by simpa [isNonce] using h3
      subst hv
      refine ⟨Or.inr ⟨pre, v1, rest, post, h1, h4, ?_⟩, rfl⟩
      simp only
      rw [h1, ← h2]
      simp

/-- Once there is a long enough nonce tag, setting a nonce succeeds. -/
theorem addNonce_total {cfg : Option Config.Config} {e : Event} {old : List (List Bytes)} {n nonce : Nat}
    {target : Int} (ht : target > 0) (h : NonceTags old e.tags n target) :
    ∃ e', addNonce cfg e nonce target = .ok e' := by
  have key : ∀ pre v rest post, e.tags = pre ++ (c!"nonce" :: v :: rest) :: post →
      (∀ t ∈ pre, t.head? ≠ some (c!"nonce")) → ∃ e', addNonce cfg e nonce target = .ok e' := by
    intro pre v rest post h1 h2
    unfold addNonce
    have hf := findNonce_at (t := c!"nonce" :: v :: rest) (post := post) h2 rfl
    rw [h1, hf]
    simp only
    rw [show (pre ++ (c!"nonce" :: v :: rest) :: post).getD pre.length [] = c!"nonce" :: v :: rest by simp]
    simp only [updateNonce, if_pos ht]
    exact ⟨_, rfl⟩
  rcases h with ⟨h1, h2⟩ | ⟨pre, v, rest, post, h1, h2, h3⟩
  · exact key old _ _ [] h2 h1
  · exact key pre _ _ post h3 h2

/-- The first nonce tag is unique. -/
theorem first_unique (p1 p2 : List (List Bytes)) (t1 t2 : List Bytes) (q1 q2 : List (List Bytes))
    (he : p1 ++ t1 :: q1 = p2 ++ t2 :: q2) (g1 : ∀ t ∈ p1, t.head? ≠ some (c!"nonce"))
    (g2 : ∀ t ∈ p2, t.head? ≠ some (c!"nonce")) (g3 : t1.head? = some (c!"nonce")) (g4 : t2.head? = some (c!"nonce")) :
    p1 = p2 ∧ t1 = t2 ∧ q1 = q2 := by
  have e1 := findNonce_at (post := q1) g1 g3
  have e2 := findNonce_at (post := q2) g2 g4
  rw [he, e2, Option.some.injEq] at e1
  obtain ⟨r1, r2⟩ := List.append_inj he e1.symm
  simp only [List.cons.injEq] at r2
  exact ⟨r1, r2.1, r2.2⟩

theorem nonceTags_trans {a b c : List (List Bytes)} {n m : Nat} {target : Int}
    (h1 : NonceTags a b n target) (h2 : NonceTags b c m target) : NonceTags a c m target := by
  have uniq := first_unique
  rcases h1 with ⟨a1, a2⟩ | ⟨pre, v, rest, post, a1, a2, a3⟩
  · rcases h2 with ⟨b1, b2⟩ | ⟨pre', v', rest', post', b1, b2, b3⟩
    · exfalso
      refine b1 [c!"nonce", Num.decNat n, Num.decInt target] ?_ rfl
      rw [a2]; simp
    · rw [a2] at b1
      obtain ⟨u1, u2, u3⟩ := uniq a pre' _ _ [] post' b1 a1 b2 rfl rfl
      subst u1 u3
      simp only [List.cons.injEq, true_and] at u2
      obtain ⟨-, rfl⟩ := u2
      exact Or.inl ⟨a1, b3⟩
  · rcases h2 with ⟨b1, b2⟩ | ⟨pre', v', rest', post', b1, b2, b3⟩
    · exfalso
      refine b1 (c!"nonce" :: Num.decNat n :: Num.decInt target :: rest.drop 1) ?_ rfl
      rw [a3]; simp
    · rw [a3] at b1
      obtain ⟨u1, u2, u3⟩ := uniq pre pre' _ _ post post' b1 a2 b2 rfl rfl
      subst u1 u3
      simp only [List.cons.injEq, true_and] at u2
      obtain ⟨-, rfl⟩ := u2
      refine Or.inr ⟨pre, v, rest, post, a1, a2, ?_⟩
      rw [b3]
      rfl

/-- The tags are still the old ones or the old ones with some nonce. -/
def Tagged (old new : List (List Bytes)) (target : Int) : Prop := new = old ∨ ∃ n, NonceTags old new n target

theorem Tagged.step {a b c : List (List Bytes)} {m : Nat} {target : Int}
    (h1 : Tagged a b target) (h2 : NonceTags b c m target) : NonceTags a c m target := by
  rcases h1 with rfl | ⟨n, h1⟩
  · exact h2
  · exact nonceTags_trans h1 h2

/-- Where a first nonce tag is, setting a nonce overwrites it. -/
theorem nonceTags_at {pre post c : List (List Bytes)} {v : Bytes} {rest : List Bytes} {m : Nat} {target : Int}
    (h1 : ∀ t ∈ pre, t.head? ≠ some (c!"nonce")) (h : NonceTags (pre ++ (c!"nonce" :: v :: rest) :: post) c m target) :
    c = pre ++ (c!"nonce" :: Num.decNat m :: Num.decInt target :: rest.drop 1) :: post := by
  rcases h with ⟨b1, b2⟩ | ⟨pre', v', rest', post', b1, b2, b3⟩
  · exact absurd rfl (b1 (c!"nonce" :: v :: rest) (by simp))
  · obtain ⟨u1, u2, u3⟩ := first_unique _ _ _ _ _ _ b1 h1 b2 rfl rfl
    subst u1 u3
    simp only [List.cons.injEq, true_and] at u2
    obtain ⟨-, rfl⟩ := u2
    exact b3

/-- A lack of memory leaves tags that the next nonce brings back in order. -/
theorem Halfway.back {e e' : Event} {nonce : Nat} (h : Halfway e nonce e') {c : List (List Bytes)} {m : Nat} {target : Int}
    (hc : NonceTags e'.tags c m target) : NonceTags e.tags c m target := by
  have key : ∀ pre v0 t post, e.tags = pre ++ (v0 :: t) :: post → findNonce e.tags = some pre.length →
      v0 = c!"nonce" ∧ ∀ t ∈ pre, t.head? ≠ some (c!"nonce") := by
    intro pre v0 t post h1 h2
    obtain ⟨pre', t', post', g1, g2, g3, g4⟩ := findNonce_some h2
    rw [h1] at g1
    obtain ⟨r1, r2⟩ := List.append_inj g1 g2.symm
    simp only [List.cons.injEq] at r2
    subst r1
    refine ⟨?_, g4⟩
    rw [← r2.1] at g3
    simpa [isNonce] using g3
  cases h with
  | same => exact hc
  | nonce pre v0 v1 rest post h1 h2 =>
    obtain ⟨rfl, k⟩ := key _ _ _ _ h1 h2
    exact .inr ⟨pre, v1, rest, post, h1, k, nonceTags_at k hc⟩
  | null pre v0 v1 post h1 h2 =>
    obtain ⟨rfl, k⟩ := key _ _ _ _ h1 h2
    exact .inr ⟨pre, v1, [], post, h1, k, (nonceTags_at (rest := [[]]) k hc).trans (by simp)⟩

theorem Halfway.rest {e e' : Event} {nonce : Nat} (h : Halfway e nonce e') : e' = { e with tags := e'.tags } := by
  cases h <;> rfl

/-- Fields that mining does not touch. -/
structure Same (e0 e : Event) : Prop where
  pubkey : e.pubkey = e0.pubkey
  kind : e.kind = e0.kind
  content : e.content = e0.content
  sig : e.sig = e0.sig

theorem computeId_ok {C : Crypto} {b : Build} {e e' : Event} (h : computeId C b e = .ok e') :
    ∃ t, serialize b e = .ok t ∧ e' = { e with id := C.sha256 t } ∧ serialize b e' = .ok t := by
  unfold computeId at h
  rw [Res.bind_eq_ok] at h
  obtain ⟨t, ht, h⟩ := h
  simp only [Res.ok.injEq] at h
  subst h
  refine ⟨t, ht, rfl, ?_⟩
  rw [← ht]; cases b <;> rfl

theorem zero_of_ge {id : Bytes} {target : Int} (h : (difficulty id : Int) ≥ target) :
    ZeroBits id target.toNat := by
  intro i hi
  exact (difficulty_spec id).2.1 i (by omega)

theorem difficulty_ge {id : Bytes} {k : Nat} (hk : k ≤ 8 * id.length) (h : ZeroBits id k) :
    k ≤ difficulty id := by
  obtain ⟨h1, h2, h3⟩ := difficulty_spec id
  rcases Nat.lt_or_ge (difficulty id) k with hl | hl
  · have := h3 (by omega)
    rw [h _ hl] at this
    simp at this
  · exact hl

theorem mineLoop_sound (E : Env) {target : Int} (ht : target > 0) (maxIter : Nat) (e0 : Event) :
    ∀ (fuel iter : Nat) (e e' : Event), Tagged e0.tags e.tags target → Same e0 e →
    mineLoop E target maxIter fuel iter e = some (.ok e') →
    ∃ k, Mined E.crypto E.build e0 target (k % 2 ^ 64) e' ∧ e'.createdAt = E.clock k ∧
      (maxIter = 0 ∨ k < maxIter) ∧ (difficulty e'.id : Int) ≥ target := by
  intro fuel
  induction fuel with
  | zero => intro iter e e' _ _ h; simp [mineLoop] at h
  | succ fuel ih =>
    intro iter e e' h1 h2 h
    unfold mineLoop at h
    split at h
    · rename_i hlim
      split at h
      · rename_i e1 ha
        obtain ⟨a1, a2⟩ := addNonce_ok ht ha
        split at h
        · rename_i e2 hc
          obtain ⟨t, c1, c2, c3⟩ := computeId_ok hc
          have s2 : Same e0 e2 := by
            subst c2; rw [a2]; exact ⟨h2.1, h2.2, h2.3, h2.4⟩
          have t2 : NonceTags e0.tags e2.tags (iter % 2 ^ 64) target := by
            subst c2; exact h1.step a1
          split at h
          · rename_i hd
            simp only [Option.some.injEq, Res.ok.injEq] at h
            subst h
            refine ⟨iter, ⟨⟨t, c3, by rw [c2]⟩, zero_of_ge hd, t2, s2.1, s2.2, s2.3, s2.4⟩, by rw [c2], hlim, hd⟩
          · exact ih _ _ _ (Or.inr ⟨_, t2⟩) s2 h
        · simp at h
        · simp at h
      · simp at h
      · simp at h
    · simp at h

theorem ensureNonce_ok {cfg : Option Config.Config} {e e' : Event} {target : Int} (ht : target > 0)
    (h : ensureNonce cfg e target = .ok e') : Tagged e.tags e'.tags target ∧ Same e e' := by
  unfold ensureNonce at h
  split at h
  · simp only [Res.ok.injEq] at h
    subst h
    exact ⟨Or.inl rfl, ⟨rfl, rfl, rfl, rfl⟩⟩
  · obtain ⟨a1, a2⟩ := addNonce_ok ht h
    refine ⟨Or.inr ⟨_, a1⟩, ?_⟩
    rw [a2]
    exact ⟨rfl, rfl, rfl, rfl⟩

theorem serialize_noerr (b : Build) (e : Event) (x : Err) : serialize b e ≠ .err x := by
  cases b with
  | cjson => simp [serialize]
  | plain =>
    have hput : ∀ (w : Wr) (c : UInt8) (x : Err), w.put c ≠ .err x := by
      intro w c x; unfold Wr.put; split <;> simp
    have hpr : ∀ (w : Wr) (c : Bytes) (x : Err), w.printf c ≠ .err x := by
      intro w c x; unfold Wr.printf; repeat' split
      all_goals simp
    have hcm : ∀ (w : Wr) (f : Bool) (x : Err), (if f then .ok w else w.put 0x2c) ≠ .err x := by
      intro w f x; cases f
      · simpa using hput w _ x
      · simp
    have hb : ∀ {α β : Type} (r : Res α) (f : α → Res β) (x : Err), (∀ y, r ≠ .err y) → (∀ a, f a ≠ .err x) →
        (r >>= f) ≠ .err x := by
      intro α β r f x h1 h2
      cases r with
      | ok a => exact h2 a
      | err y => exact absurd rfl (h1 y)
      | ub => simp
    have hv : ∀ (vs : List Bytes) (w : Wr) (f : Bool) (x : Err), putValues w f vs ≠ .err x := by
      intro vs
      induction vs with
      | nil => intro w f x; simp [putValues]
      | cons v vs ih =>
        intro w f x
        unfold putValues
        exact hb _ _ _ (hcm w f) fun w1 => hb _ _ _ (hpr w1 _) fun w2 => ih _ _ _
    have htg : ∀ (ts : List (List Bytes)) (w : Wr) (f : Bool) (x : Err), putTags w f ts ≠ .err x := by
      intro ts
      induction ts with
      | nil => intro w f x; simp [putTags]
      | cons t ts ih =>
        intro w f x
        unfold putTags
        exact hb _ _ _ (hcm w f) fun w1 => hb _ _ _ (hput w1 _) fun w2 => hb _ _ _ (hv t w2 true) fun w3 =>
          hb _ _ _ (hput w3 _) fun w4 => ih _ _ _
    simp only [serialize, serializePlain]
    refine hb _ _ _ (hpr _ _) fun w1 => hb _ _ _ (htg _ _ _) fun w2 => ?_
    split
    · simp
    · exact hb _ _ _ (hpr _ _) fun w3 => by simp

theorem addNonce_err {cfg : Option Config.Config} {e : Event} {nonce : Nat} {target : Int} {x : Err}
    (h : addNonce cfg e nonce target = .err x) : x = .invalidParam := by
  unfold addNonce at h
  split at h
  · unfold updateNonce at h
    split at h
    · simp at h
    · simp at h
    · split at h <;> simp at h
  · generalize (if target > 0 then [c!"nonce", Num.decNat nonce, Num.decInt target]
        else [c!"nonce", Num.decNat nonce]) = v at h
    unfold addTag at h
    split at h
    · simpa using h.symm
    · split at h
      · simpa using h.symm
      · simp at h

theorem mineLoop_notFound (E : Env) {target : Int} (ht : target > 0) (maxIter : Nat) (e0 : Event) :
    ∀ (fuel iter : Nat) (e : Event), Tagged e0.tags e.tags target → Same e0 e →
    mineLoop E target maxIter fuel iter e = some (.err .notFound) →
    0 < maxIter ∧ ∀ k, iter ≤ k → k < maxIter → ∃ ek : Event,
      (∃ t, serialize E.build ek = .ok t ∧ ek.id = E.crypto.sha256 t) ∧
      NonceTags e0.tags ek.tags (k % 2 ^ 64) target ∧ ek.createdAt = E.clock k ∧
      ek.pubkey = e0.pubkey ∧ ek.kind = e0.kind ∧ ek.content = e0.content ∧
      (difficulty ek.id : Int) < target := by
  intro fuel
  induction fuel with
  | zero => intro iter e _ _ h; simp [mineLoop] at h
  | succ fuel ih =>
    intro iter e h1 h2 h
    unfold mineLoop at h
    split at h
    · rename_i hlim
      split at h
      · rename_i e1 ha
        obtain ⟨a1, a2⟩ := addNonce_ok ht ha
        split at h
        · rename_i e2 hc
          obtain ⟨t, c1, c2, c3⟩ := computeId_ok hc
          have s2 : Same e0 e2 := by
            subst c2; rw [a2]; exact ⟨h2.1, h2.2, h2.3, h2.4⟩
          have t2 : NonceTags e0.tags e2.tags (iter % 2 ^ 64) target := by
            subst c2; exact h1.step a1
          split at h
          · simp at h
          · rename_i hd
            obtain ⟨g1, g2⟩ := ih _ _ (Or.inr ⟨_, t2⟩) s2 h
            refine ⟨g1, ?_⟩
            intro k hk hk2
            rcases Nat.eq_or_lt_of_le hk with rfl | hlt
            · exact ⟨e2, ⟨t, c3, by rw [c2]⟩, t2, by rw [c2], s2.1, s2.2, s2.3, by omega⟩
            · exact g2 k (by omega) hk2
        · rename_i x hc
          exfalso
          unfold computeId at hc
          cases hs : serialize E.build { e1 with createdAt := E.clock iter } with
          | ok t => rw [hs] at hc; simp at hc
          | err y => exact serialize_noerr _ _ _ hs
          | ub => rw [hs] at hc; simp at hc
        · simp at h
      · rename_i x ha
        rw [addNonce_err ha] at h
        simp at h
      · simp at h
    · rename_i hlim
      constructor
      · omega
      · intro k hk hk2; omega

/-! ## Parallel mining -/

/-- The worker holds the lock. -/
def Pc.crit : Pc → Bool
  | .recheck | .nonce | .time | .ident | .judge | .leave | .again => true
  | _ => false

/-- The worker may write to the event. -/
def Pc.writes : Pc → Bool
  | .nonce | .time | .ident | .judge => true
  | _ => false

/-- The event is a finished result for `nonce`. -/
def Good (C : Crypto) (b : Build) (e0 : Event) (target : Int) (nonce : Nat) (e : Event) : Prop :=
  (∃ t, serialize b e = .ok t ∧ e.id = C.sha256 t) ∧ NonceTags e0.tags e.tags nonce target

/-- The invariant. -/
structure Inv (C : Crypto) (b : Build) (target : Int) (e0 : Event) (s : St) : Prop where
  lock : ∀ i, (s.workers i).pc.crit = true → s.lock = some i
  tagged : ∀ c m, NonceTags s.event.tags c m target → NonceTags e0.tags c m target
  same : Same e0 s.event
  nonceSet : ∀ i, (s.workers i).pc = .time ∨ (s.workers i).pc = .ident ∨ (s.workers i).pc = .judge →
    NonceTags e0.tags s.event.tags (s.workers i).nonce target
  idSet : ∀ i, (s.workers i).pc = .judge → ∃ t, serialize b s.event = .ok t ∧ s.event.id = C.sha256 t
  flag : ∀ i, (s.workers i).found = true → s.globalFound = true
  quiet : ∀ i j, (s.workers i).found = true → (s.workers j).pc.writes = false
  one : ∀ i j, (s.workers i).found = true → (s.workers j).found = true → i = j
  win : ∀ i, (s.workers i).found = true →
    Good C b e0 target (s.workers i).result s.event ∧ (difficulty s.event.id : Int) ≥ target

theorem inv_start (C : Crypto) (b : Build) {target : Int} {e0 e : Event} (h1 : Tagged e0.tags e.tags target)
    (h2 : Same e0 e) : Inv C b target e0 (start e) where
  lock := fun i h => by simp [start, Pc.crit] at h
  tagged := fun _ _ h => h1.step h
  same := h2
  nonceSet := fun i h => by simp [start] at h
  idSet := fun i h => by simp [start] at h
  flag := fun i h => by simp [start] at h
  quiet := fun i j h => by simp [start] at h
  one := fun i j h => by simp [start] at h
  win := fun i h => by simp [start] at h

@[simp] theorem set_workers (s : St) (i j : Nat) (w : Worker) :
    (s.set i w).workers j = if j = i then w else s.workers j := rfl
@[simp] theorem set_event (s : St) (i : Nat) (w : Worker) : (s.set i w).event = s.event := rfl
@[simp] theorem set_lock (s : St) (i : Nat) (w : Worker) : (s.set i w).lock = s.lock := rfl
@[simp] theorem set_flag (s : St) (i : Nat) (w : Worker) : (s.set i w).globalFound = s.globalFound := rfl

theorem writes_crit {p : Pc} (h : p.writes = true) : p.crit = true := by cases p <;> simp_all [Pc.writes, Pc.crit]

/-- A step that only moves worker `i`'s program counter to a place outside the stages where something has
to be shown. -/
theorem inv_move {C : Crypto} {b : Build} {target : Int} {e0 : Event} {s : St} (h : Inv C b target e0 s) (i : Nat)
    (l : Option Nat) (w : Worker) (hf : w.found = (s.workers i).found) (hr : w.result = (s.workers i).result)
    (hw : w.pc.writes = true → s.globalFound = false)
    (hst : w.pc ≠ .time ∧ w.pc ≠ .ident ∧ w.pc ≠ .judge)
    (hl : ∀ j, j ≠ i → (s.workers j).pc.crit = true → l = some j) (hl2 : w.pc.crit = true → l = some i) :
    Inv C b target e0 ({ s with lock := l }.set i w) where
  lock := fun j hj => by
    simp only [set_workers, set_lock] at hj ⊢
    split at hj
    · subst_vars; exact hl2 hj
    · exact hl j (by assumption) hj
  tagged := h.tagged
  same := h.same
  nonceSet := fun j hj => by
    simp only [set_workers, set_event] at hj ⊢
    split at hj
    · exfalso; rcases hj with hj | hj | hj <;> simp_all
    · rename_i hne; rw [if_neg hne]; exact h.nonceSet j hj
  idSet := fun j hj => by
    simp only [set_workers, set_event] at hj ⊢
    split at hj
    · exfalso; exact hst.2.2 hj
    · exact h.idSet j hj
  flag := fun j hj => by
    simp only [set_workers, set_flag] at hj ⊢
    split at hj
    · subst_vars; rw [hf] at hj; exact h.flag _ hj
    · exact h.flag j hj
  quiet := fun j k hj => by
    have hj' : (s.workers j).found = true := by
      simp only [set_workers] at hj
      split at hj
      · subst_vars; rw [hf] at hj; exact hj
      · exact hj
    simp only [set_workers]
    split
    · cases hwr : w.pc.writes with
      | false => rfl
      | true => have := hw hwr; rw [h.flag j hj'] at this; simp at this
    · exact h.quiet j k hj'
  one := fun j k hj hk => by
    have hj' : (s.workers j).found = true := by
      simp only [set_workers] at hj
      split at hj
      · subst_vars; rw [hf] at hj; exact hj
      · exact hj
    have hk' : (s.workers k).found = true := by
      simp only [set_workers] at hk
      split at hk
      · subst_vars; rw [hf] at hk; exact hk
      · exact hk
    exact h.one j k hj' hk'
  win := fun j hj => by
    simp only [set_workers, set_event] at hj ⊢
    split at hj
    · subst_vars; rw [if_pos rfl, hr]; rw [hf] at hj; exact h.win _ hj
    · rename_i hne; rw [if_neg hne]; exact h.win j hj

/-- The worker that may write is the only one in the critical section, and nobody has found yet. -/
theorem writer_alone {C : Crypto} {b : Build} {target : Int} {e0 : Event} {s : St} (h : Inv C b target e0 s)
    {i : Nat} (hw : (s.workers i).pc.writes = true) :
    (∀ j, j ≠ i → (s.workers j).pc.crit = false) ∧ ∀ j, (s.workers j).found = false := by
  constructor
  · intro j hj
    cases hc : (s.workers j).pc.crit with
    | false => rfl
    | true =>
      have h1 := h.lock i (writes_crit hw)
      have h2 := h.lock j hc
      rw [h1] at h2
      simp only [Option.some.injEq] at h2
      exact absurd h2.symm hj
  · intro j
    cases hc : (s.workers j).found with
    | false => rfl
    | true => have := h.quiet j i hc; rw [hw] at this; simp at this

/-- A step of the writing worker that changes the event. -/
theorem inv_write {C : Crypto} {b : Build} {target : Int} {e0 : Event} {s : St} (h : Inv C b target e0 s) {i : Nat}
    (hw : (s.workers i).pc.writes = true) (e : Event) (p : Pc) (hp : p.crit = true)
    (ht : NonceTags e0.tags e.tags (s.workers i).nonce target) (hs : Same e0 e)
    (hid : p = .judge → ∃ t, serialize b e = .ok t ∧ e.id = C.sha256 t) :
    Inv C b target e0 ({ s with event := e }.set i { s.workers i with pc := p }) := by
  obtain ⟨a1, a2⟩ := writer_alone h hw
  have nf : ∀ j, (({ s with event := e }.set i { s.workers i with pc := p }).workers j).found = false := by
    intro j
    simp only [set_workers]
    split
    · exact a2 i
    · exact a2 j
  refine ⟨?_, fun _ _ hc => nonceTags_trans ht hc, hs, ?_, ?_, ?_, ?_, ?_, ?_⟩
  · intro j hj
    simp only [set_workers, set_lock] at hj ⊢
    split at hj
    · subst_vars; exact h.lock _ (writes_crit hw)
    · exact h.lock j hj
  · intro j hj
    simp only [set_workers, set_event] at hj ⊢
    split at hj
    · rename_i he; rw [if_pos he]; exact ht
    · rename_i he
      exfalso
      have := a1 j he
      rcases hj with hj | hj | hj <;> rw [hj] at this <;> simp [Pc.crit] at this
  · intro j hj
    simp only [set_workers, set_event] at hj ⊢
    split at hj
    · exact hid hj
    · rename_i he
      exfalso
      have := a1 j he
      rw [hj] at this
      simp [Pc.crit] at this
  · intro j hj; rw [nf j] at hj; simp at hj
  · intro j k hj; rw [nf j] at hj; simp at hj
  · intro j k hj; rw [nf j] at hj; simp at hj
  · intro j hj; rw [nf j] at hj; simp at hj

theorem inv_step {cfg : Option Config.Config} {C : Crypto} {b : Build} {target : Int} (ht : target > 0)
    {n maxIter : Nat} {e0 : Event} {s s' : St} (h : Inv C b target e0 s)
    (hs : Step cfg C b target n maxIter s s') : Inv C b target e0 s' := by
  cases hs with
  | create _ _ => exact ⟨h.1, h.2, h.3, h.4, h.5, h.6, h.7, h.8, h.9⟩
  | createFails _ _ => exact ⟨h.1, h.2, h.3, h.4, h.5, fun _ _ => rfl, h.7, h.8, h.9⟩
  | stop i _ hp _ =>
    exact inv_move h i s.lock _ rfl rfl (by simp [Pc.writes]) (by simp) (fun j _ hj => h.lock j hj)
      (by simp [Pc.crit])
  | goOn i _ hp _ _ =>
    exact inv_move h i s.lock _ rfl rfl (by simp [Pc.writes]) (by simp) (fun j _ hj => h.lock j hj)
      (by simp [Pc.crit])
  | acquire i _ hp hl =>
    refine inv_move h i (some i) _ rfl rfl (by simp [Pc.writes]) (by simp) ?_ (fun _ => rfl)
    intro j _ hj
    have := h.lock j hj
    rw [hl] at this
    simp at this
  | recheck i _ hp =>
    refine inv_move h i s.lock _ rfl rfl ?_ ?_ (fun j _ hj => h.lock j hj) (fun _ => h.lock i (by rw [hp]; rfl))
    · simp only
      intro hw
      cases hg : s.globalFound with
      | false => rfl
      | true => rw [hg] at hw; simp [Pc.writes] at hw
    · simp only
      split <;> simp
  | setNonce i e _ hp ha =>
    obtain ⟨a1, a2⟩ := addNonce_ok ht ha
    refine inv_write h (by rw [hp]; rfl) e .time rfl (h.tagged _ _ a1) ?_ (by simp)
    rw [a2]
    exact ⟨h.same.1, h.same.2, h.same.3, h.same.4⟩
  | nonceFails i x _ hp _ =>
    exact inv_move h i s.lock _ rfl rfl (by simp [Pc.writes]) (by simp) (fun j _ hj => h.lock j hj)
      (fun _ => h.lock i (by rw [hp]; rfl))
  | setTime i t _ hp =>
    exact inv_write h (by rw [hp]; rfl) { s.event with createdAt := t } .ident rfl (h.nonceSet i (Or.inl hp))
      ⟨h.same.1, h.same.2, h.same.3, h.same.4⟩ (by simp)
  | setId i e _ hp hc =>
    obtain ⟨t, c1, c2, c3⟩ := computeId_ok hc
    refine inv_write h (by rw [hp]; rfl) e .judge rfl ?_ ?_ (fun _ => ⟨t, c3, by rw [c2]⟩)
    · rw [c2]; exact h.nonceSet i (Or.inr (Or.inl hp))
    · rw [c2]; exact ⟨h.same.1, h.same.2, h.same.3, h.same.4⟩
  | nonceMemory i e _ hp hh =>
    obtain ⟨a1, a2⟩ := writer_alone h (i := i) (by rw [hp]; rfl)
    have h' : Inv C b target e0 { s with event := e } := by
      refine ⟨h.lock, fun c m hc => h.tagged c m (hh.back hc), ?_, ?_, ?_, h.flag, h.quiet, h.one, ?_⟩
      · rw [hh.rest]
        exact ⟨h.same.1, h.same.2, h.same.3, h.same.4⟩
      · intro j hj
        by_cases he : j = i
        · subst he; simp [hp] at hj
        · exfalso
          have := a1 j he
          rcases hj with hj | hj | hj <;> simp only at hj <;> rw [hj] at this <;> simp [Pc.crit] at this
      · intro j hj
        by_cases he : j = i
        · subst he; simp [hp] at hj
        · exfalso
          have := a1 j he
          simp only at hj
          rw [hj] at this
          simp [Pc.crit] at this
      · intro j hj
        have := a2 j
        simp only at hj
        rw [this] at hj
        simp at hj
    exact inv_move h' i s.lock _ rfl rfl (by simp [Pc.writes]) (by simp) (fun j _ hj => h'.lock j hj)
      (fun _ => h'.lock i (by simp only; rw [hp]; rfl))
  | idMemory i _ hp =>
    exact inv_move h i s.lock _ rfl rfl (by simp [Pc.writes]) (by simp) (fun j _ hj => h.lock j hj)
      (fun _ => h.lock i (by rw [hp]; rfl))
  | idFails i x _ hp _ =>
    exact inv_move h i s.lock _ rfl rfl (by simp [Pc.writes]) (by simp) (fun j _ hj => h.lock j hj)
      (fun _ => h.lock i (by rw [hp]; rfl))
  | lose i _ hp _ =>
    exact inv_move h i s.lock _ rfl rfl (by simp [Pc.writes]) (by simp) (fun j _ hj => h.lock j hj)
      (fun _ => h.lock i (by rw [hp]; rfl))
  | unlockLeave i _ hp =>
    refine inv_move h i none _ rfl rfl (by simp [Pc.writes]) (by simp) ?_ (by simp [Pc.crit])
    intro j hj hc
    have h1 := h.lock i (by rw [hp]; rfl)
    have h2 := h.lock j hc
    rw [h1] at h2
    exact absurd (by simpa using h2.symm) hj
  | unlockAgain i _ hp =>
    refine inv_move h i none _ rfl rfl (by simp [Pc.writes]) (by simp) ?_ (by simp [Pc.crit])
    intro j hj hc
    have h1 := h.lock i (by rw [hp]; rfl)
    have h2 := h.lock j hc
    rw [h1] at h2
    exact absurd (by simpa using h2.symm) hj
  | win i _ hp hd =>
    obtain ⟨a1, a2⟩ := writer_alone h (i := i) (by rw [hp]; rfl)
    have fi : ∀ j, ((({ s with globalFound := true } : St).set i
        { s.workers i with pc := .leave, found := true, result := (s.workers i).nonce }).workers j).found = true →
        j = i := by
      intro j hj
      simp only [set_workers] at hj
      split at hj
      · assumption
      · rw [a2 j] at hj; simp at hj
    refine ⟨?_, h.tagged, h.same, ?_, ?_, fun _ _ => rfl, ?_, ?_, ?_⟩
    · intro j hj
      simp only [set_workers, set_lock] at hj ⊢
      split at hj
      · subst_vars; exact h.lock _ (by rw [hp]; rfl)
      · exact h.lock j hj
    · intro j hj
      simp only [set_workers, set_event] at hj ⊢
      split at hj
      · simp at hj
      · rename_i he; rw [if_neg he]; exact h.nonceSet j hj
    · intro j hj
      simp only [set_workers, set_event] at hj ⊢
      split at hj
      · simp at hj
      · exact h.idSet j hj
    · intro j k _
      simp only [set_workers]
      split
      · rfl
      · rename_i he
        cases hw : (s.workers k).pc.writes with
        | false => rfl
        | true => have := a1 k he; rw [writes_crit hw] at this; simp at this
    · intro j k hj hk; rw [fi j hj, fi k hk]
    · intro j hj
      rw [fi j hj]
      simp only [set_workers, if_pos, set_event]
      exact ⟨⟨h.idSet i hp, h.nonceSet i (Or.inr (Or.inr hp))⟩, hd⟩

theorem inv_steps {cfg : Option Config.Config} {C : Crypto} {b : Build} {target : Int} (ht : target > 0)
    {n maxIter : Nat} {e0 : Event} {s s' : St} (h : Inv C b target e0 s)
    (hs : Steps cfg C b target n maxIter s s') : Inv C b target e0 s' := by
  induction hs with
  | refl => exact h
  | tail _ h2 ih => exact inv_step ht ih h2

end Nostr.Nip13
