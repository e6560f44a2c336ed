import Verif.Keys.Spec

/-! # Property theorems: shared secrets (C124) -/

namespace Nostr.Keys.Props
open Nostr Nostr.Keys Nostr.Keys.Spec

section
variable {E : Points} {ok : Bytes → Prop} {pt : Bytes → E.Pt} {neg : E.Pt → E.Pt}

/-- The point computed from the x coordinate of the other's public key. -/
theorem shared_point (h : Laws E ok pt neg) (a b : Bytes) (hb : ok b) :
    ∃ P, E.lift (E.x (pt b)) = some P ∧
      E.mul a P = if E.odd (pt b) then neg (E.mul a (pt b)) else E.mul a (pt b) := by
  refine ⟨_, h.lift b hb, ?_⟩
  split
  · exact h.mulNeg a _
  · rfl

/-- **C124 (noscrypt).** Two parties that know each other's public key compute the same shared secret, the
x coordinate of the shared point. -/
theorem C124_noscrypt (h : Laws E ok pt neg) (sha : Bytes → Bytes) (a b : Bytes) (ha : ok a) (hb : ok b) :
    ecdh .noscrypt E sha a (E.x (pt b)) = .ok (E.x (E.mul a (pt b))) ∧
    ecdh .noscrypt E sha b (E.x (pt a)) = .ok (E.x (E.mul a (pt b))) := by
  obtain ⟨P, hP, hm⟩ := shared_point h a b hb
  obtain ⟨Q, hQ, hn⟩ := shared_point h b a ha
  simp only [ecdh, hP, hQ, hm, hn, h.comm b a]
  refine ⟨?_, ?_⟩ <;> split <;> simp [h.x]

/-- **C124 (secp256k1, part that holds).** If the public keys of both have y coordinates of the same parity,
they compute the same secret. -/
theorem C124_secp_partial (h : Laws E ok pt neg) (sha : Bytes → Bytes) (a b : Bytes) (ha : ok a) (hb : ok b)
    (hp : E.odd (pt a) = E.odd (pt b)) :
    ecdh .secp E sha a (E.x (pt b)) = ecdh .secp E sha b (E.x (pt a)) := by
  obtain ⟨P, hP, hm⟩ := shared_point h a b hb
  obtain ⟨Q, hQ, hn⟩ := shared_point h b a ha
  simp only [ecdh, hP, hQ, hm, hn, h.comm b a, hp]

/-- **C124 refuted (secp256k1).** If the parities differ, one party hashes the shared x coordinate with the
prefix 2 and the other with the prefix 3: a common secret would be a collision of SHA-256. -/
theorem C124_secp_refuted (h : Laws E ok pt neg) (sha : Bytes → Bytes) (a b : Bytes) (ha : ok a) (hb : ok b)
    (hp : E.odd (pt a) ≠ E.odd (pt b)) :
    ∃ X c d, ((c = 2 ∧ d = 3) ∨ (c = 3 ∧ d = 2)) ∧
      ecdh .secp E sha a (E.x (pt b)) = .ok (sha (c :: X)) ∧ ecdh .secp E sha b (E.x (pt a)) = .ok (sha (d :: X)) := by
  obtain ⟨P, hP, hm⟩ := shared_point h a b hb
  obtain ⟨Q, hQ, hn⟩ := shared_point h b a ha
  have ho := h.odd a b ha hb
  refine ⟨E.x (E.mul a (pt b)), if E.odd (E.mul a P) then 3 else 2, if E.odd (E.mul b Q) then 3 else 2, ?_, ?_, ?_⟩
  · rw [hm, hn, h.comm b a]
    cases hx : E.odd (pt a) <;> cases hy : E.odd (pt b) <;> simp only [hx, hy, ne_eq, not_true_eq_false] at hp
    · cases hz : E.odd (E.mul a (pt b)) <;> simp [ho, hz]
    · cases hz : E.odd (E.mul a (pt b)) <;> simp [ho, hz]
  · simp only [ecdh, hP]
    rw [hm]; split <;> simp_all [h.x]
  · simp only [ecdh, hQ]
    rw [hn, h.comm b a]; split <;> simp_all [h.x]

/-- **C124 refuted (builds).** The two builds compute different secrets from the same keys, unless SHA-256
maps the compressed point to its own x coordinate. -/
theorem C124_builds_refuted (sha : Bytes → Bytes) (a p X : Bytes) (h : ecdh .noscrypt E sha a p = .ok X) :
    ∃ c, (c = 2 ∨ c = 3) ∧ ecdh .secp E sha a p = .ok (sha (c :: X)) := by
  simp only [ecdh] at h ⊢
  cases hl : E.lift p with
  | none => rw [hl] at h; simp at h
  | some P =>
    rw [hl] at h
    simp only [Res.ok.injEq] at h
    subst h
    refine ⟨if E.odd (E.mul a P) then 3 else 2, ?_, rfl⟩
    split <;> simp

end

/-- A group of seven elements in the place of the curve: the numbers modulo 7, `n` and `7 - n` share their
x coordinate. -/
abbrev small : Points where
  Pt := Fin 7
  mul a P := Fin.ofNat 7 (a.foldl (fun n c => n + c.toNat) 0) * P
  x P := [UInt8.ofNat (min P.val (7 - P.val))]
  odd P := decide (P.val > 3)
  lift := fun
    | [c] => if 0 < c ∧ c < 4 then some (Fin.ofNat 7 c.toNat) else none
    | _ => none

instance : DecidableEq small.Pt := inferInstanceAs (DecidableEq (Fin 7))
instance : Neg small.Pt := inferInstanceAs (Neg (Fin 7))

/-- The public point of a secret. -/
def smallPt (a : Bytes) : small.Pt := small.mul a (1 : Fin 7)

theorem fin7 : ∀ P : Fin 7, P ≠ 0 →
    small.odd (-P : Fin 7) = (!small.odd P) ∧ small.lift (small.x P) = some (if small.odd P then (-P : Fin 7) else P) := by
  decide +kernel

theorem fin7_x : ∀ P : Fin 7, P ≠ 0 → small.x (-P : Fin 7) = small.x P := by decide +kernel

theorem fin7_mul : ∀ P Q : Fin 7, P ≠ 0 → Q ≠ 0 → P * (Q * 1) ≠ 0 := by decide +kernel

theorem fin7_ring : ∀ P Q : Fin 7, P * (Q * 1) = Q * (P * 1) ∧ P * -Q = -(P * Q) := by decide +kernel

/-- The laws hold for the small group (its neutral element needs an x coordinate that negation keeps). -/
theorem small_laws : Laws small (fun a => smallPt a ≠ (0 : Fin 7)) smallPt (fun P => -P) where
  comm a b := (fin7_ring _ _).1
  mulNeg a P := (fin7_ring _ P).2
  x P := by
    by_cases h : P = (0 : Fin 7)
    · subst h; decide +kernel
    · exact fin7_x P h
  odd a b ha hb := by
    refine (fin7 _ ?_).1
    have hb' : Fin.ofNat 7 (b.foldl (fun n c => n + c.toNat) 0) ≠ 0 := by
      intro h; apply hb; show Fin.ofNat 7 _ * 1 = 0; rw [h]; rfl
    have ha' : Fin.ofNat 7 (a.foldl (fun n c => n + c.toNat) 0) ≠ 0 := by
      intro h; apply ha; show Fin.ofNat 7 _ * 1 = 0; rw [h]; rfl
    exact fin7_mul _ _ ha' hb'
  lift a ha := (fin7 _ ha).2

/-- Secrets 2 and 5 of the small group have public keys of different parity, 2 and 3 of the same. -/
example : smallPt [2] ≠ (0 : Fin 7) ∧ smallPt [5] ≠ (0 : Fin 7) ∧ smallPt [3] ≠ (0 : Fin 7) ∧
    small.odd (smallPt [2]) ≠ small.odd (smallPt [5]) ∧ small.odd (smallPt [2]) = small.odd (smallPt [3]) ∧
    ecdh .noscrypt small id [2] [3] = .ok [1] := by decide +kernel

/-! ## The curve secp256k1 itself -/

namespace Secp

/-- The field prime. -/
def p : Nat := 2 ^ 256 - 2 ^ 32 - 977

/-- `b ^ e` modulo the prime, by squaring. -/
def pow : Nat → Nat → Nat → Nat
  | 0, _, _ => 1
  | f + 1, b, e => if e = 0 then 1 else
      let r := pow f (b * b % p) (e / 2)
      if e % 2 = 1 then b * r % p else r

/-- Inverse modulo the prime. -/
def inv (a : Nat) : Nat := pow 256 (a % p) (p - 2)

/-- `a - b` modulo the prime. -/
def sub (a b : Nat) : Nat := (a + p - b % p) % p

/-- Addition of points; `none` is the neutral element. -/
def add : Option (Nat × Nat) → Option (Nat × Nat) → Option (Nat × Nat)
  | none, Q => Q
  | P, none => P
  | some (x1, y1), some (x2, y2) =>
      if x1 = x2 ∧ (y1 + y2) % p = 0 then none
      else
        let l := if x1 = x2 then 3 * x1 * x1 * inv (2 * y1) % p else sub y2 y1 * inv (sub x2 x1) % p
        let x := sub (sub (l * l) x1) x2
        some (x, sub (l * sub x1 x) y1)

/-- Multiplication by a number, by doubling. -/
def mul : Nat → Nat → Option (Nat × Nat) → Option (Nat × Nat)
  | 0, _, _ => none
  | f + 1, n, P => if n = 0 then none else
      let Q := mul f (n / 2) (add P P)
      if n % 2 = 1 then add P Q else Q

/-- A big-endian number. -/
def num (b : Bytes) : Nat := b.foldl (fun n c => n * 256 + c.toNat) 0

/-- 32 big-endian bytes. -/
def bytes : Nat → Nat → Bytes
  | 0, _ => []
  | k + 1, n => bytes k (n / 256) ++ [UInt8.ofNat (n % 256)]

/-- The generator. -/
def G : Option (Nat × Nat) :=
  some (0x79be667ef9dcbbac55a06295ce870b07029bfcdb2dce28d959f2815b16f81798,
    0x483ada7726a3c4655da4fbfc0e1108a8fd17b448a68554199c47d08ffb10d4b8)

/-- The point with the given x coordinate and even y. -/
def lift (x : Nat) : Option (Option (Nat × Nat)) :=
  let c := (x * x * x + 7) % p
  let y := pow 256 c ((p + 1) / 4)
  if x < p ∧ y * y % p = c then some (some (x, if y % 2 = 0 then y else p - y)) else none

/-- secp256k1 as the libraries use it. -/
def points : Points where
  Pt := Option (Nat × Nat)
  mul a P := mul 256 (num a) P
  x P := bytes 32 (P.elim 0 (·.1))
  odd P := P.elim 0 (·.2) % 2 == 1
  lift b := lift (num b)

/-- The x coordinate of the public key of a secret. -/
def pub (a : Bytes) : Bytes := points.x (points.mul a G)

end Secp

/-- **C124 refuted on secp256k1.** For the secrets 2 and 6 the noscrypt build computes the same secret on both
sides, the x coordinate of 12 G; the secp256k1 build hashes it with the prefix 3 on one side and 2 on the
other. (12 G has odd y: one side computes -12 G.) -/
theorem C124_curve_refuted (sha : Bytes → Bytes) :
    let a := List.replicate 31 0 ++ [2]
    let b := List.replicate 31 0 ++ [6]
    let X := Secp.pub (List.replicate 31 0 ++ [12])
    ecdh .noscrypt Secp.points sha a (Secp.pub b) = .ok X ∧ ecdh .noscrypt Secp.points sha b (Secp.pub a) = .ok X ∧
    ecdh .secp Secp.points sha a (Secp.pub b) = .ok (sha (2 :: X)) ∧
    ecdh .secp Secp.points sha b (Secp.pub a) = .ok (sha (3 :: X)) := by
  have key : ∀ c d e : UInt8, (c, d, e) ∈ [(2, 6, 2), (6, 2, 3)] →
      ((Secp.points.lift (Secp.pub (List.replicate 31 0 ++ [d]))).map fun P =>
        let S := Secp.points.mul (List.replicate 31 0 ++ [c]) P
        ((if Secp.points.odd S then 3 else 2 : UInt8), Secp.points.x S)) = some (e, Secp.pub (List.replicate 31 0 ++ [12])) := by
    intro c d e h
    simp only [List.mem_cons, Prod.mk.injEq, List.not_mem_nil, or_false] at h
    rcases h with ⟨rfl, rfl, rfl⟩ | ⟨rfl, rfl, rfl⟩ <;> decide +kernel
  have conv : ∀ c d e : UInt8, (c, d, e) ∈ [(2, 6, 2), (6, 2, 3)] →
      ecdh .noscrypt Secp.points sha (List.replicate 31 0 ++ [c]) (Secp.pub (List.replicate 31 0 ++ [d])) =
        .ok (Secp.pub (List.replicate 31 0 ++ [12])) ∧
      ecdh .secp Secp.points sha (List.replicate 31 0 ++ [c]) (Secp.pub (List.replicate 31 0 ++ [d])) =
        .ok (sha (e :: Secp.pub (List.replicate 31 0 ++ [12]))) := by
    intro c d e h
    have hk := key c d e h
    unfold ecdh
    cases hl : Secp.points.lift (Secp.pub (List.replicate 31 0 ++ [d])) with
    | none => rw [hl] at hk; simp at hk
    | some P =>
      rw [hl] at hk
      simp only [Option.map_some, Option.some.injEq, Prod.mk.injEq] at hk
      simp only
      exact ⟨by rw [hk.2], by rw [hk.1, hk.2]⟩
  have h1 := conv 2 6 2 (by simp)
  have h2 := conv 6 2 3 (by simp)
  exact ⟨h1.1, h2.1, h1.2, h2.2⟩

end Nostr.Keys.Props
