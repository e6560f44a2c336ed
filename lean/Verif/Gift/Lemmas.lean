import Verif.Gift.Spec
import Verif.Nip44.Props
import Verif.Nip47.Params
import Verif.Json.NoNul

/-! # Lemmas about seals and wraps -/

namespace Nostr.Gift
open Nostr Nostr.Event Nostr.Gift.Spec Nostr.Json

theorem addTag_ok {cfg : Option Config.Config} {e e1 : Event} {v : List Bytes} (h : addTag cfg e v = .ok e1) :
    e1 = { e with tags := e.tags ++ [v] } ∧ ∀ c ∈ cfg, e.tags.length < c.maxTags := by
  unfold addTag at h
  split at h
  · cases h
  · split at h
    · cases h
    · rename_i hc
      refine ⟨by cases h; rfl, ?_⟩
      intro c hm
      cases hm
      simpa using hc

theorem computeId_ok {C : Crypto} {b : Build} {e e1 : Event} (h : computeId C b e = .ok e1) :
    ∃ t, serialize b e = .ok t ∧ e1 = { e with id := C.sha256 t } := by
  unfold computeId at h
  obtain ⟨t, h1, h2⟩ := Res.bind_eq_ok.1 h
  simp only [Res.ok.injEq] at h2
  exact ⟨t, h1, h2.symm⟩

theorem sign_ok {C : Crypto} {b : Build} {rand : Option Bytes} {sk : Bytes} {e e1 : Event} (h : sign C b rand sk e = .ok e1) :
    ∃ pk t r s, C.pubOf sk = some pk ∧ serialize b { e with pubkey := pk } = .ok t ∧ rand = some r ∧
      C.sign sk (C.sha256 t) r = some s ∧ e1 = { e with pubkey := pk, id := C.sha256 t, sig := s } := by
  unfold sign at h
  cases hp : C.pubOf sk with
  | none => rw [hp] at h; cases h
  | some pk =>
    rw [hp] at h
    simp only at h
    obtain ⟨x, h1, h2⟩ := Res.bind_eq_ok.1 h
    obtain ⟨t, h3, rfl⟩ := computeId_ok h1
    cases rand with
    | none => cases h2
    | some r =>
      simp only at h2
      cases hs : C.sign sk (C.sha256 t) r with
      | none => rw [hs] at h2; cases h2
      | some s =>
        rw [hs] at h2
        simp only [Res.ok.injEq] at h2
        exact ⟨pk, t, r, s, rfl, h3, rfl, hs, h2.symm⟩

/-- What a seal is, whatever it contains. -/
theorem sealOf_ok {E : Env} {aux : Option Bytes} {sk : Bytes} {time : Int} {ct : Bytes} {sl : Event}
    (h : sealOf E aux sk time ct = .ok sl) :
    ∃ pk id sig r, E.crypto.pubOf sk = some pk ∧ E.crypto.sign sk id r = some sig ∧
      (∃ t, id = E.crypto.sha256 t) ∧ sl = ⟨id, pk, time, 13, [], some ct, sig⟩ ∧
      ∃ e, sign E.crypto E.build aux sk e = .ok sl := by
  unfold sealOf at h
  cases hp : E.crypto.pubOf sk with
  | none => rw [hp] at h; cases h
  | some pk =>
    rw [hp] at h
    simp only at h
    obtain ⟨x, h1, h2⟩ := Res.bind_eq_ok.1 h
    obtain ⟨t, h3, rfl⟩ := computeId_ok h1
    obtain ⟨pk', t', r, s, g1, g2, g3, g4, g5⟩ := sign_ok h2
    rw [hp, Option.some.injEq] at g1
    subst g1
    exact ⟨pk, E.crypto.sha256 t', s, r, rfl, g4, ⟨t', rfl⟩, g5, _, h2⟩

/-- Values taken two by two; a last single one is left out. -/
def twos : List Bytes → List (List Bytes)
  | a :: b :: ts => [a, b] :: twos ts
  | _ => []

theorem twos_flat (ps : List (Bytes × Bytes)) : twos (ps.flatMap fun p => [p.1, p.2]) = ps.map fun p => [p.1, p.2] := by
  induction ps with
  | nil => rfl
  | cons p ps ih =>
    rw [List.flatMap_cons, List.map_cons, ← ih]
    rfl

theorem pairTags_ok {cfg : Option Config.Config} : ∀ {ts : List Bytes} {e e1 : Event}, pairTags cfg e ts = .ok e1 →
    e1 = { e with tags := e.tags ++ twos ts }
  | [], e, e1, h => by
      unfold pairTags at h
      simp only [Res.ok.injEq] at h
      rw [← h]; simp [twos]
  | [_], e, e1, h => by
      unfold pairTags at h
      simp only [Res.ok.injEq] at h
      rw [← h]; simp [twos]
  | a :: b :: ts, e, e1, h => by
      unfold pairTags at h
      obtain ⟨x, h1, h2⟩ := Res.bind_eq_ok.1 h
      obtain ⟨rfl, -⟩ := addTag_ok h1
      obtain rfl := pairTags_ok h2
      simp [twos]

/-- What a gift wrap is, whatever it contains. -/
theorem wrapOf_ok {E : Env} {aux : Option Bytes} {esk epk rpk : Bytes} {time : Int} {extra : List Bytes} {ct : Bytes} {w : Event}
    (h : wrapOf E aux esk epk rpk time extra ct = .ok w) :
    w.kind = 1059 ∧ w.createdAt = time ∧ w.content = some ct ∧ E.crypto.pubOf esk = some w.pubkey ∧
      w.tags = [c!"p", Hex.Spec.hexText rpk] :: twos extra ∧
      ∃ e, sign E.crypto E.build aux esk e = .ok w := by
  unfold wrapOf at h
  obtain ⟨e1, h1, k1⟩ := Res.bind_eq_ok.1 h
  obtain ⟨e2, h2, k2⟩ := Res.bind_eq_ok.1 k1
  obtain ⟨e3, h3, k3⟩ := Res.bind_eq_ok.1 k2
  obtain ⟨rfl, -⟩ := addTag_ok h1
  obtain rfl := pairTags_ok h2
  obtain ⟨t, -, rfl⟩ := computeId_ok h3
  obtain ⟨pk, t', r, s, g1, g2, g3, g4, g5⟩ := sign_ok k3
  subst g5
  exact ⟨rfl, rfl, rfl, g1, by rw [Hex.hexEncode_eq]; rfl, _, k3⟩

/-- Characters of base64 are not escaped in JSON. -/
theorem alphabet_plain : ∀ c ∈ Base64.alphabet, c ≠ 0x22 ∧ c ≠ 0x5c ∧ 0x20 ≤ c.toNat := by decide +kernel

theorem standard_plain {B : Nip44.B64} (h : Standard B) (x : Bytes) : Nip47.Spec.Plain (B.enc x) := by
  intro c hc
  rcases h.chars x c hc with h1 | rfl
  · exact alphabet_plain c h1
  · decide

/-- The JSON text of a seal. -/
theorem seal_json_length (td : Int → Int) (fr : Int → Bytes) {id pk sig ct : Bytes} {time : Int} (h1 : id.length = 32)
    (h2 : pk.length = 32) (h3 : sig.length = 64) (h4 : time.natAbs < 10 ^ 15) (h5 : Nip47.Spec.Plain ct) :
    (print true 0 (toTree td fr ⟨id, pk, time, 13, [], some ct, sig⟩)).length ≤ ct.length + 400 := by
  unfold toTree
  rw [numTok_small td fr h4, numTok_small td fr (n := ((13 : Nat) : Int)) (by decide)]
  have hp : ∀ b : Bytes, (escape (Hex.hexEncode b)).length = 2 * b.length := by
    intro b
    rw [escape_hex, hexEncode_length]
  have ht : (Num.decInt time).length ≤ 20 := Num.decInt_length time (by omega) (by omega)
  have e1 : (escape ct).length = ct.length := by rw [Nip47.Props.escape_plain h5]
  simp only [print, printMembers, printElems, quoted, Event.text, Option.getD_some, List.map_nil, if_true,
    List.length_append, List.length_cons, List.length_nil, hp, h1, h2, h3, e1]
  have k1 : (escape [105, 100]).length = 2 := by decide +kernel
  have k2 : (escape [112, 117, 98, 107, 101, 121]).length = 6 := by decide +kernel
  have k3 : (escape [99, 114, 101, 97, 116, 101, 100, 95, 97, 116]).length = 10 := by decide +kernel
  have k4 : (escape [107, 105, 110, 100]).length = 4 := by decide +kernel
  have k5 : (escape [116, 97, 103, 115]).length = 4 := by decide +kernel
  have k6 : (escape [99, 111, 110, 116, 101, 110, 116]).length = 7 := by decide +kernel
  have k7 : (escape [115, 105, 103]).length = 3 := by decide +kernel
  have k8 : (Num.decInt ((13 : Nat) : Int)).length = 2 := by decide +kernel
  have k9 : (tabs (0 + 1)).length = 1 := rfl
  have k0 : (tabs 0).length = 0 := rfl
  rw [k1, k2, k3, k4, k5, k6, k7, k8, k9, k0]
  omega

end Nostr.Gift
