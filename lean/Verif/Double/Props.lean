import Verif.Double.Lemmas
import Verif.Double.Spec
import Verif.Event.Props

/-!
# Property C190: times with more than 15 digits
-/

namespace Nostr.Double.Props
open Nostr Nostr.Json Nostr.Event Nostr.Event.Spec Nostr.Double Nostr.Double.Spec Nostr.Event.Props

theorem time_le {e : Event} (h : WF e) : e.createdAt.natAbs ≤ 2 ^ 63 := by
  have := h.time
  omega

theorem survives_back {n : Int} (h : Survives n) : int64 read (numTok ofInt format n) = n := by
  refine (back_iff h.1).2 ?_
  have := h.2
  omega

/-- **C190**, writing and reading, for every event within the limits: all fields but the time come back; below 2^53 the time comes back
exactly if it is below 2^52 or ends neither in 1 nor in 9; from 2^53 on what comes back is even. Missing: the other times, for which the
property fails. -/
theorem C190_roundtrip_partial (lax : Bool) (cfg : Option Config.Config) {e : Event} (h : WF e)
    (hc : ∀ c ∈ cfg, e.tags.length ≤ c.maxTags ∧ e.text.length ≤ c.maxContent) :
    ∃ s t, toJson Double.build e = .ok s ∧ fromJson (plat lax) Double.build cfg s = .ok { e with createdAt := t, content := some e.text } ∧
      (e.createdAt.natAbs < 2 ^ 53 → (t = e.createdAt ↔ Survives e.createdAt)) ∧ (2 ^ 53 ≤ e.createdAt.natAbs → t % 2 = 0) := by
  obtain ⟨g1, g2⟩ := good_toTree_num (td := ofInt) (fr := format) h (tok_good (time_le h))
  refine ⟨_, int64 read (numTok ofInt format e.createdAt), rfl, ?_, ?_, ?_⟩
  · simp only [fromJson, Double.build]
    have h1 := parse_print true 0 _ g1 g2 [] (by simp [Stop])
    rw [List.append_nil] at h1
    rw [h1]
    exact fromTree_num (plat lax) cfg ofInt format h hc
  · intro hb
    rw [back_iff hb]
    unfold Survives
    omega
  · intro hb
    exact (tok_big hb (time_le h)).2

/-- A note of a given time. -/
def at_ (t : Int) : Event := { note with createdAt := t }

theorem at_wf {t : Int} (h : -2 ^ 63 ≤ t ∧ t ≤ 2 ^ 63 - 1) : WF (at_ t) := by
  have w := note_wf
  exact ⟨w.id, w.pubkey, w.sig, h, w.kind, w.tags, w.content⟩

/-- The hypotheses are met by a time in microseconds, which survives, and by one that does not. -/
example : WF (at_ 1700000000123456) ∧ Survives 1700000000123456 ∧ WF (at_ 5000000000000001) ∧ ¬ Survives 5000000000000001 ∧
    ¬ Survives (2 ^ 53 + 1) := ⟨at_wf (by decide), by decide, at_wf (by decide), by decide, by decide⟩

/-- **C190 fails**: an event of time 5000000000000001 comes back with time 5000000000000000, one of time 2^53 with time 2^53 - 2. -/
theorem C190_roundtrip_refuted (lax : Bool) :
    (∃ s, toJson Double.build (at_ 5000000000000001) = .ok s ∧
      fromJson (plat lax) Double.build none s = .ok (at_ 5000000000000000)) ∧
    ∃ s, toJson Double.build (at_ (2 ^ 53)) = .ok s ∧ fromJson (plat lax) Double.build none s = .ok (at_ (2 ^ 53 - 2)) := by
  have key : ∀ t t' : Int, -2 ^ 63 ≤ t ∧ t ≤ 2 ^ 63 - 1 → int64 read (numTok ofInt format t) = t' →
      ∃ s, toJson Double.build (at_ t) = .ok s ∧ fromJson (plat lax) Double.build none s = .ok (at_ t') := by
    intro t t' ht hb
    obtain ⟨g1, g2⟩ := good_toTree_num (td := ofInt) (fr := format) (at_wf ht) (tok_good (time_le (at_wf ht)))
    refine ⟨_, rfl, ?_⟩
    simp only [fromJson, Double.build]
    have h1 := parse_print true 0 _ g1 g2 [] (by simp [Stop])
    rw [List.append_nil] at h1
    rw [h1]
    refine (fromTree_num (plat lax) none ofInt format (at_wf ht) (by simp)).trans ?_
    show Res.ok { at_ t with createdAt := int64 read (numTok ofInt format t), content := some (at_ t).text } = _
    rw [hb]
    rfl
  exact ⟨key _ _ (by decide) (by decide +kernel), key _ _ (by decide) (by decide +kernel)⟩

/-- **C190 fails** for the largest time: the text of an event of time 2^63 - 1 holds a number that no 64-bit integer is, so the conversion
of event.c:500 is undefined. -/
theorem C190_overflow_refuted (lax : Bool) : ∃ s e, toJson Double.build (at_ (2 ^ 63 - 1)) = .ok s ∧
    fromJson (plat lax) Double.build none s = .ok e ∧ e.createdAt = 2 ^ 63 := by
  have w : WF (at_ (2 ^ 63 - 1)) := at_wf (by decide)
  obtain ⟨g1, g2⟩ := good_toTree_num (td := ofInt) (fr := format) w (tok_good (time_le w))
  refine ⟨_, { at_ (2 ^ 63 - 1) with createdAt := int64 read (numTok ofInt format (2 ^ 63 - 1)) }, rfl, ?_, ?_⟩
  · simp only [fromJson, Double.build]
    have h1 := parse_print true 0 _ g1 g2 [] (by simp [Stop])
    rw [List.append_nil] at h1
    rw [h1]
    exact fromTree_num (plat lax) none ofInt format w (by simp)
  · show int64 read (numTok ofInt format (2 ^ 63 - 1)) = 2 ^ 63
    decide +kernel

/-- **C190**, ids: two events whose times survive have the same preimage of the id exactly if they agree in everything that is signed. -/
theorem C190_id_partial {a b : Event} (ha : WF a) (hb : WF b) (ta : Survives a.createdAt) (tb : Survives b.createdAt) :
    serialize Double.build a = serialize Double.build b ↔ SameSigned a b := by
  constructor
  · intro h
    simp only [serialize, Double.build, Res.ok.injEq] at h
    obtain ⟨h1, h2, h3, h4, h5⟩ := idTree_num ha hb (tok_good (time_le ha)) (tok_good (time_le hb)) h
    refine ⟨h1, ?_, h3, h4, h5⟩
    rw [← survives_back ta, h2, survives_back tb]
  · rintro ⟨h1, h2, h3, h4, h5⟩
    simp only [serialize, Double.build, idTree, h1, h2, h3, h4, h5]

/-- **C190**, signatures: if two events of times that survive and of one id both verify, and differ in something that is signed, then two
different texts with one hash have been found. -/
theorem C190_tamper_partial {C : Crypto} (hC : CryptoOK C) {e e' : Event} (w : WF e) (w' : WF e') (t : Survives e.createdAt)
    (t' : Survives e'.createdAt) (hid : e.id = e'.id) (hd : ¬ SameSigned e e') (hv : verify C Double.build e = .ok ())
    (hv' : verify C Double.build e' = .ok ()) :
    ∃ x y, serialize Double.build e = .ok x ∧ serialize Double.build e' = .ok y ∧ x ≠ y ∧ C.sha256 x = C.sha256 y := by
  obtain ⟨x, hx, h1, -⟩ := (C19_verify_iff hC w.id).1 hv
  obtain ⟨y, hy, h2, -⟩ := (C19_verify_iff hC w'.id).1 hv'
  refine ⟨x, y, hx, hy, ?_, by rw [← h1, ← h2, hid]⟩
  rintro rfl
  exact hd ((C190_id_partial w w' t t').1 (by rw [hx, hy]))

/-- **C190 fails** for ids: whoever signs an event of time 5000000000000001 has signed the same event of time 5000000000000000, and both
verify, whatever the cryptography. -/
theorem C190_id_refuted {C : Crypto} (hC : CryptoOK C) {rand : Option Bytes} {sk : Bytes} {e0 e : Event}
    (h0 : e0.createdAt = 5000000000000001) (h : sign C Double.build rand sk e0 = .ok e) :
    e.createdAt = 5000000000000001 ∧ verify C Double.build e = .ok () ∧
      verify C Double.build { e with createdAt := 5000000000000000 } = .ok () := by
  obtain ⟨h1, -, h2⟩ := C19_signed_verifies hC h
  have ht : e.createdAt = 5000000000000001 := h2.2.1.trans h0
  have hser : serialize Double.build { e with createdAt := 5000000000000000 } = serialize Double.build e := by
    have h1 : numTok ofInt format 5000000000000001 = numTok ofInt format 5000000000000000 := by decide +kernel
    simp only [serialize, Double.build, idTree, h1, Event.text, ht]
  refine ⟨ht, h1, ?_⟩
  rw [← h1]
  unfold verify computeId
  rw [hser]
  cases serialize Double.build e with
  | ok t => rfl
  | err _ => rfl
  | ub => rfl

example : (sign toyCrypto Double.build (some []) (List.replicate 32 3) (at_ 5000000000000001)).isOk = true := by decide +kernel

/-- The rounding assumed in `C17_cjson_refuted`, `C19_tamper_cjson_refuted` and `C20_large_time_refuted` is that of doubles. -/
example : ofInt (2 ^ 53 + 1) = ofInt (2 ^ 53) := by decide +kernel

end Nostr.Double.Props
