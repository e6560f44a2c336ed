import Verif.Nip05.Model
import Verif.Nip05.Spec
import Verif.Hex.Lemmas

/-! # NIP-05 identifiers and their verification -/

namespace Nostr.Nip05
open Nostr

theorem isAlnum_iff (c : UInt8) : isAlnum c = true ↔ Spec.IsAlnum c := by
  simp only [isAlnum, Spec.IsAlnum, Bool.or_eq_true, Bool.and_eq_true, decide_eq_true_eq, or_assoc]

theorem validLocal_iff (s : Bytes) : validLocal s = true ↔ Spec.LocalPart s := by
  simp only [validLocal, Spec.LocalPart]
  split
  · simp; omega
  · simp only [List.all_eq_true, Bool.or_eq_true, isAlnum_iff, beq_iff_eq, or_assoc]
    constructor
    · intro h; exact ⟨by omega, by omega, h⟩
    · intro h; exact h.2.2


/-- What the loop checks, in terms of the labels. -/
theorem loop_iff (s : Bytes) : ∀ (prev : Option UInt8) (dot : Bool), s.getLast? ≠ some 0x2e → (s = [] → prev ≠ some 0x2e) →
    ∀ l ls, Text.split 0x2e s = l :: ls →
    (domainLoop prev dot s = true ↔
      (∀ t ∈ l :: ls, ∀ c ∈ t, Spec.IsAlnum c ∨ c = 0x2d) ∧ (∀ t ∈ ls, t ≠ []) ∧ (prev = some 0x2e → l ≠ []) ∧
        (dot = true ∨ ls ≠ [])) := by
  induction s with
  | nil =>
    intro prev dot _ h0 l ls hs
    simp only [Text.split, List.cons.injEq] at hs
    obtain ⟨rfl, rfl⟩ := hs
    simp [domainLoop, h0]
  | cons c s ih =>
    intro prev dot hl _ l ls hs
    have hne := Text.split_ne 0x2e s
    cases hq : Text.split 0x2e s with
    | nil => exact absurd hq hne
    | cons m ms =>
      simp only [Text.split, hq] at hs
      have hlast : s.getLast? ≠ some 0x2e := by
        cases s with
        | nil => simp
        | cons a t => simpa [List.getLast?_cons_cons] using hl
      by_cases hc : c = 0x2e
      · subst hc
        have hs0 : s ≠ [] := by rintro rfl; simp at hl
        simp only [if_true, List.cons.injEq] at hs
        obtain ⟨rfl, rfl⟩ := hs
        have := ih (some 0x2e) true hlast (fun h => absurd h hs0) m ms hq
        simp only [domainLoop, if_true]
        by_cases hp : prev = some 0x2e
        · simp [hp]
        · simp only [if_neg hp, this]
          simp [hp, and_comm, and_left_comm, and_assoc]
      · simp only [hc, if_false, List.cons.injEq] at hs
        obtain ⟨rfl, rfl⟩ := hs
        have hcc : ¬ (some c = some 0x2e) := by simpa using hc
        have := ih (some c) dot hlast (fun _ => hcc) m ms hq
        simp only [domainLoop, hc, if_false]
        by_cases ho : (isAlnum c || c == 0x2d) = true
        · simp only [ho, if_true, this]
          have h1 : Spec.IsAlnum c ∨ c = 0x2d := by simpa [isAlnum_iff] using ho
          simp [h1, hc]
        · have h1 : ¬ (Spec.IsAlnum c ∨ c = 0x2d) := by simpa [isAlnum_iff] using ho
          simp only [ho]
          simp only [List.mem_cons, forall_eq_or_imp, h1, false_and, Bool.false_eq_true, if_false]

theorem split_first (s : Bytes) (l : Bytes) (ls : List Bytes) (h : Text.split 0x2e s = l :: ls) :
    s.head? = some 0x2e ↔ (l = [] ∧ s ≠ []) := by
  cases s with
  | nil => simp
  | cons c s =>
    simp only [Text.split] at h
    by_cases hc : c = 0x2e
    · simp only [hc, if_true, List.cons.injEq] at h
      simp [hc, ← h.1]
    · simp only [hc, if_false] at h
      cases hq : Text.split 0x2e s with
      | nil => exact absurd hq (Text.split_ne _ _)
      | cons m ms =>
        simp only [hq, List.cons.injEq] at h
        simp [hc, ← h.1]

theorem split_last (s : Bytes) : s.getLast? = some 0x2e → ∃ x y xs, Text.split 0x2e s = x :: y :: xs ∧ [] ∈ y :: xs := by
  induction s with
  | nil => simp
  | cons c s ih =>
    intro h
    cases s with
    | nil =>
      simp at h
      exact ⟨[], [], [], by simp [Text.split, h], by simp⟩
    | cons a t =>
      rw [List.getLast?_cons_cons] at h
      obtain ⟨x, y, xs, h1, h2⟩ := ih h
      rw [Text.split]
      split
      · exact ⟨[], x, y :: xs, by rw [h1], List.mem_cons_of_mem _ h2⟩
      · exact ⟨c :: x, y, xs, by rw [h1], h2⟩

theorem validDomain_iff (s : Bytes) : validDomain s = true ↔ Spec.Domain s := by
  cases hq : Text.split 0x2e s with
  | nil => exact absurd hq (Text.split_ne _ _)
  | cons l ls =>
    simp only [validDomain, Spec.Domain, hq]
    by_cases h0 : s.length = 0
    · have : s = [] := List.length_eq_zero_iff.1 h0
      subst this
      simp only [Text.split, List.cons.injEq] at hq
      obtain ⟨rfl, rfl⟩ := hq
      simp
    have hs : s ≠ [] := fun h => h0 (by simp [h])
    by_cases h1 : s.length > 256
    · simp only [h1, or_true, if_true]
      simp; omega
    simp only [h0, h1, or_self, if_false]
    by_cases h2 : s.head? = some 0x2e
    · have := (split_first s l ls hq).1 h2
      simp [h2, this.1]
    by_cases h3 : s.getLast? = some 0x2e
    · obtain ⟨x, y, xs, e1, e2⟩ := split_last s h3
      rw [hq] at e1
      cases e1
      simp only [h3, or_true, if_true, Bool.false_eq_true, false_iff]
      intro h
      exact (h.2.2 [] (List.mem_cons_of_mem _ e2)).1 rfl
    simp only [h2, h3, or_self, if_false]
    have hl : l ≠ [] := fun h => h2 ((split_first s l ls hq).2 ⟨h, hs⟩)
    rw [loop_iff s none false h3 (by simp) l ls hq]
    constructor
    · rintro ⟨a, b, -, c⟩
      simp only [Bool.false_eq_true, false_or] at c
      refine ⟨by omega, ?_, ?_⟩
      · cases ls with
        | nil => exact absurd rfl c
        | cons _ _ => simp
      · intro t ht
        refine ⟨?_, a t ht⟩
        rcases List.mem_cons.1 ht with e | e
        · rw [e]; exact hl
        · exact b t e
    · rintro ⟨-, b, c⟩
      refine ⟨fun t ht => (c t ht).2, fun t ht => (c t (List.mem_cons_of_mem _ ht)).1, by simp, .inr ?_⟩
      rintro rfl
      simp at b

theorem lower_eq (s : Bytes) : lower s = Spec.lowerCase s := rfl

theorem lower_length (s : Bytes) : (lower s).length = s.length := by simp [lower]

theorem local_noat {s : Bytes} (h : Spec.LocalPart s) : ∀ c ∈ s, c ≠ 0x40 := by
  rintro c hc rfl
  have := h.2.2 _ hc
  revert this; decide

namespace Props

/-- C57: what is accepted, and what it is split into: exactly the texts `local@domain`; both parts are given in lower
case, and have to fit the buffers. -/
theorem C57_parse (identifier : Bytes) (nameSize domainSize : Nat) (hn : 2 ≤ nameSize) (hd : 4 ≤ domainSize)
    (name domain : Bytes) :
    parse identifier nameSize domainSize = .ok (name, domain) ↔
      ∃ a b, identifier = a ++ c!"@" ++ b ∧ Spec.LocalPart a ∧ Spec.Domain b ∧ a.length < nameSize ∧
        b.length < domainSize ∧ name = Spec.lowerCase a ∧ domain = Spec.lowerCase b := by
  unfold parse
  have h0 : ¬ (nameSize < 2 ∨ domainSize < 4) := by omega
  simp only [h0, if_false]
  constructor
  · intro h
    have hid := List.takeWhile_append_dropWhile (p := (· != 0x40)) (l := identifier)
    cases hq : identifier.dropWhile (· != 0x40) with
    | nil => rw [hq] at h; cases h
    | cons x b =>
      rw [hq] at h hid
      have hx : x = 0x40 := by
        have := List.head?_dropWhile_not (· != (0x40 : UInt8)) identifier
        rw [hq] at this
        simpa using this
      subst hx
      generalize hg : identifier.takeWhile (· != 0x40) = a at h hid
      simp only at h
      split at h
      · cases h
      · split at h
        · cases h
        · split at h
          · cases h
          · rename_i h1 h2 h3
            simp only [Res.ok.injEq, Prod.mk.injEq] at h
            refine ⟨a, b, ?_, (validLocal_iff a).1 (by simpa using h1), (validDomain_iff b).1 (by simpa using h2),
              by omega, by omega, h.1.symm, h.2.symm⟩
            rw [← hid]; simp
  · rintro ⟨a, b, rfl, h1, h2, h3, h4, rfl, rfl⟩
    have ha : ∀ c ∈ a, (c != 0x40) = true := fun c hc => by simpa using local_noat h1 c hc
    have e1 : (a ++ c!"@" ++ b).takeWhile (· != 0x40) = a := by
      rw [List.append_assoc, List.takeWhile_append_of_pos ha]
      simp
    have e2 : (a ++ c!"@" ++ b).dropWhile (· != 0x40) = 0x40 :: b := by
      rw [List.append_assoc, List.dropWhile_append_of_pos ha]
      simp
    rw [e1, e2]
    simp only [(validLocal_iff a).2 h1, (validDomain_iff b).2 h2]
    have h5 : ¬ (a.length ≥ nameSize ∨ b.length ≥ domainSize) := by omega
    simp only [h5, Bool.not_true, Bool.false_eq_true, if_false, lower_eq]


example : parse (c!"Bob@Example.com") 65 257 = .ok (c!"bob", c!"example.com") ∧
    parse (c!"bob@a..b") 65 257 = .err .invalidParam := by decide +kernel

end Props

theorem local_lower {a : Bytes} (h : Spec.LocalPart a) : Spec.LocalPart (Spec.lowerCase a) := by
  refine ⟨by simpa [Spec.lowerCase] using h.1, by simpa [Spec.lowerCase] using h.2.1, ?_⟩
  have key : ∀ n < 256, (Spec.IsAlnum (UInt8.ofNat n) ∨ UInt8.ofNat n = 0x2d ∨ UInt8.ofNat n = 0x5f ∨ UInt8.ofNat n = 0x2e) →
      (Spec.IsAlnum (tolower (UInt8.ofNat n)) ∨ tolower (UInt8.ofNat n) = 0x2d ∨ tolower (UInt8.ofNat n) = 0x5f ∨
        tolower (UInt8.ofNat n) = 0x2e) := by decide +kernel
  intro c hc
  simp only [Spec.lowerCase, List.mem_map] at hc
  obtain ⟨x, hx, rfl⟩ := hc
  have := key x.toNat (UInt8.toNat_lt x)
  simp only [UInt8.ofNat_toNat] at this
  exact this (h.2.2 x hx)

theorem domain_chars {d : Bytes} (h : Spec.Domain d) : ∀ c ∈ d, Spec.IsAlnum c ∨ c = 0x2d ∨ c = 0x2e := by
  intro c hc
  have hj := Text.join_split 0x2e d
  by_cases h0 : c = 0x2e
  · exact .inr (.inr h0)
  · have : ∃ l ∈ Text.split 0x2e d, c ∈ l := by
      clear h hj
      induction d with
      | nil => simp at hc
      | cons x d ih =>
        simp only [Text.split]
        rcases List.mem_cons.1 hc with e | e
        · subst e
          rw [if_neg h0]
          split <;> simp
        · obtain ⟨l, hl, hcl⟩ := ih e
          split
          · exact ⟨l, List.mem_cons_of_mem _ hl, hcl⟩
          · cases hq : Text.split 0x2e d with
            | nil => exact absurd hq (Text.split_ne _ _)
            | cons m ms =>
              rw [hq] at hl
              rcases List.mem_cons.1 hl with e2 | e2
              · exact ⟨x :: m, by simp, by rw [← e2]; exact List.mem_cons_of_mem _ hcl⟩
              · exact ⟨l, List.mem_cons_of_mem _ e2, hcl⟩
    obtain ⟨l, hl, hcl⟩ := this
    rcases (h.2.2 l hl).2 c hcl with e | e
    · exact .inl e
    · exact .inr (.inl e)

/-- Characters of lower-cased domains. -/
def HostChar (c : UInt8) : Prop := (0x61 ≤ c ∧ c ≤ 0x7a) ∨ (0x30 ≤ c ∧ c ≤ 0x39) ∨ c = 0x2d ∨ c = 0x2e

instance (c : UInt8) : Decidable (HostChar c) := by unfold HostChar; infer_instance

theorem domain_lower {d : Bytes} (h : Spec.Domain d) : ∀ c ∈ Spec.lowerCase d, HostChar c := by
  have key : ∀ n < 256, (Spec.IsAlnum (UInt8.ofNat n) ∨ UInt8.ofNat n = 0x2d ∨ UInt8.ofNat n = 0x2e) →
      HostChar (tolower (UInt8.ofNat n)) := by decide +kernel
  intro c hc
  simp only [Spec.lowerCase, List.mem_map] at hc
  obtain ⟨x, hx, rfl⟩ := hc
  have := key x.toNat (UInt8.toNat_lt x)
  simp only [UInt8.ofNat_toNat] at this
  exact this (domain_chars h x hx)

theorem takeWhile_all' {α : Type} {p : α → Bool} {l : List α} (h : ∀ x ∈ l, p x = true) : l.takeWhile p = l := by
  induction l with
  | nil => rfl
  | cons a l ih => simp [h a (by simp), ih (fun x hx => h x (List.mem_cons_of_mem _ hx))]

theorem host_wellKnown (n : Bytes) {d : Bytes} (h : ∀ c ∈ d, HostChar c) : Spec.hostOf (Spec.wellKnown n d) = some d := by
  have g : ∀ c ∈ d, c ≠ 0x2f ∧ c ≠ 0x3f ∧ c ≠ 0x23 ∧ c ≠ 0x40 ∧ c ≠ 0x3a := by
    intro c hc
    have := h c hc
    refine ⟨?_, ?_, ?_, ?_, ?_⟩ <;> (rintro rfl; revert this; decide)
  have h1 : (Spec.wellKnown n d).take 8 = c!"https://" := by
    simp [Spec.wellKnown]
  have h2 : ((Spec.wellKnown n d).drop 8).takeWhile (fun c => c != 0x2f && c != 0x3f && c != 0x23) = d := by
    have : (Spec.wellKnown n d).drop 8 = d ++ (c!"/.well-known/nostr.json?name=" ++ n) := by
      simp [Spec.wellKnown]
    rw [this, List.takeWhile_append_of_pos (by intro c hc; have := g c hc; simp [this.1, this.2.1, this.2.2.1])]
    simp
  simp only [Spec.hostOf, h1, h2, if_true]
  rw [takeWhile_all' (p := (· != 0x40)) (by intro c hc; simpa using (g c (by simpa using hc)).2.2.2.1), List.reverse_reverse,
    takeWhile_all' (p := (· != 0x3a)) (by intro c hc; simpa using (g c hc).2.2.2.2)]

theorem query_wellKnown {n d : Bytes} (hn : Spec.LocalPart n) (h : ∀ c ∈ d, HostChar c) :
    Spec.queryOf (Spec.wellKnown n d) = c!"name=" ++ n := by
  have e : Spec.wellKnown n d = (c!"https://" ++ d ++ c!"/.well-known/nostr.json") ++ (0x3f :: (c!"name=" ++ n)) := by
    simp [Spec.wellKnown]
  have g : ∀ c ∈ (c!"https://" ++ d ++ c!"/.well-known/nostr.json"), (c != 0x3f) = true := by
    intro c hc
    simp only [List.mem_append] at hc
    have a1 : ∀ x ∈ (c!"https://"), (x != 0x3f) = true := by decide
    have a2 : ∀ x ∈ (c!"/.well-known/nostr.json"), (x != 0x3f) = true := by decide
    rcases hc with (hc | hc) | hc
    · exact a1 c hc
    · have := h c hc
      simp only [bne_iff_ne]
      rintro rfl; revert this; decide
    · exact a2 c hc
  rw [Spec.queryOf, e, List.dropWhile_append_of_pos g]
  simp only [List.dropWhile_cons, bne_self_eq_false, Bool.false_eq_true, if_false, List.drop_succ_cons, List.drop_zero]
  apply takeWhile_all'
  intro c hc
  simp only [List.mem_append] at hc
  simp only [bne_iff_ne]
  have a1 : ∀ x ∈ (c!"name="), x ≠ 0x23 := by decide
  rcases hc with hc | hc
  · exact a1 c hc
  · have := hn.2.2 c hc
    rintro rfl; revert this; decide

namespace Props

/-- C57: the URL built for accepted parts is the well-known address, in every buffer that holds it; no write leaves
the buffer whatever the arguments are. -/
theorem C57_url (name domain : Bytes) (size : Nat) :
    buildUrl name domain size ≠ .ub ∧
    (∀ url, buildUrl name domain size = .ok url → url = Spec.wellKnown name domain ∧ url.length + 1 ≤ size) ∧
    (name.length ≤ 64 → domain.length ≤ 256 → (Spec.wellKnown name domain).length + 1 ≤ size →
      buildUrl name domain size = .ok (Spec.wellKnown name domain)) := by
  have hl : (c!"https://" ++ domain ++ c!"/.well-known/nostr.json?name=" ++ name).length =
      37 + name.length + domain.length := by simp; omega
  unfold buildUrl
  refine ⟨?_, ?_, ?_⟩
  · repeat' split
    all_goals first
      | (intro h; cases h; done)
      | skip
    omega
  · intro url
    repeat' split
    all_goals (intro h; first | (cases h; done) | skip)
    simp only [Res.ok.injEq] at h
    subst h
    exact ⟨rfl, by omega⟩
  · intro h1 h2 h3
    have hw : (Spec.wellKnown name domain).length = 37 + name.length + domain.length := hl
    have g1 : ¬ (name.length > 64 ∨ domain.length > 256) := by omega
    have g2 : ¬ (size < 38 + name.length + domain.length) := by omega
    have g3 : ¬ (37 + name.length + domain.length + 1 > size) := by omega
    simp only [g1, g2, hl, g3, if_false]
    rfl

/-- C57: for an accepted identifier the URL always fits the buffer of the verification, its host is the domain, and its
query is the name and nothing else. -/
theorem C57_host (identifier name domain : Bytes) (h : parse identifier 65 257 = .ok (name, domain)) :
    buildUrl name domain 512 = .ok (Spec.wellKnown name domain) ∧
    Spec.hostOf (Spec.wellKnown name domain) = some domain ∧
    Spec.queryOf (Spec.wellKnown name domain) = c!"name=" ++ name := by
  obtain ⟨a, b, -, h1, h2, -, -, rfl, rfl⟩ := (C57_parse identifier 65 257 (by omega) (by omega) name domain).1 h
  have l1 : (Spec.lowerCase a).length = a.length := by simp [Spec.lowerCase]
  have l2 : (Spec.lowerCase b).length = b.length := by simp [Spec.lowerCase]
  have g1 := h1.2.1
  have g2 := h2.1
  refine ⟨(C57_url _ _ _).2.2 (by omega) (by omega) ?_, host_wellKnown _ (domain_lower h2),
    query_wellKnown (local_lower h1) (domain_lower h2)⟩
  have hw : (Spec.wellKnown (Spec.lowerCase a) (Spec.lowerCase b)).length = 37 + a.length + b.length := by
    simp [Spec.wellKnown, l1, l2]; omega
  omega

example : buildUrl (c!"bob") (c!"example.com") 512 = .ok (c!"https://example.com/.well-known/nostr.json?name=bob") ∧
    Spec.hostOf (c!"https://user@evil.org:80/x") = some (c!"evil.org") := by decide +kernel

/-- C57: verification depends on the network only through the document at that URL, and asks for nothing when the
identifier is not accepted. -/
theorem C57_asks (http : Bytes → Res (Option (Bytes × Nat))) (identifier expected : Bytes) (want : Bool) :
    (∀ name domain, parse identifier 65 257 = .ok (name, domain) →
      verify http identifier expected want = verify (fun _ => http (Spec.wellKnown name domain)) identifier expected want) ∧
    (∀ e, parse identifier 65 257 = .err e → verify http identifier expected want = .err e) := by
  constructor
  · intro name domain h
    have := (C57_host identifier name domain h).1
    simp only [verify, h, Res.bind_ok, this]
  · intro e h
    simp only [verify, h, Res.bind_err]

example : verify (fun u => if u = c!"https://example.com/.well-known/nostr.json?name=bob" then
      .ok (some (c!"{\"names\":{\"bob\":\"b0635d6a9851d3aed0cd6c495b282167acf761729078d975fc341b22650b07b9\"}}", 80)) else .ok none)
    (c!"Bob@Example.com") (c!"B0635D6A9851D3AED0CD6C495B282167ACF761729078D975FC341B22650B07B9") true = .ok [] := by
  decide +kernel

end Props
end Nostr.Nip05
