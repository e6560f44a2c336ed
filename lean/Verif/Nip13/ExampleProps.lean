import Verif.Nip13.Example
import Verif.Nip13.Props
import Verif.Event.Props

/-! # Property theorems: C216 (the proof-of-work example) -/

namespace Nostr.Nip13.Example.Props
open Nostr Nostr.Event Nostr.Event.Spec Nostr.Event.Props Nostr.Nip13 Nostr.Nip13.Spec Nostr.Nip13.Props Nostr.Nip13.Example

theorem settings_range {args : List Bytes} {target : Int} {threads : Bool} (h : settings args = some (target, threads)) :
    1 ≤ target ∧ target ≤ 32 := by
  cases args with
  | nil => simp only [settings, Option.some.injEq, Prod.mk.injEq] at h; omega
  | cons d rest =>
    simp only [settings] at h
    split at h
    · simp at h
    · simp only [Option.some.injEq, Prod.mk.injEq] at h; omega

theorem addTag_eq {cfg : Option Config.Config} {x e : Event} {v : List Bytes} (h : addTag cfg x v = .ok e) :
    e = { x with tags := x.tags ++ [v] } := by
  unfold addTag at h
  split at h
  · simp at h
  · split at h
    · simp at h
    · simp only [Res.ok.injEq] at h
      exact h.symm

/-- The tag the program starts with. -/
theorem prepare_eq {cfg : Option Config.Config} {key : Bytes} {now target : Int} (ht : 1 ≤ target) {e : Event}
    (h : prepare cfg key now target = .ok e) :
    e = { zero with kind := 1, pubkey := key, createdAt := now, content := some words,
                    tags := [[c!"nonce", c!"0", Num.decInt target]] } := by
  have h' : addTag cfg { zero with kind := 1, pubkey := key, createdAt := now, content := some words }
      (if target > 0 then [c!"nonce", Num.decNat 0, Num.decInt target] else [c!"nonce", Num.decNat 0]) = .ok e := h
  rw [addTag_eq h', if_pos (show target > 0 by omega), show Num.decNat 0 = c!"0" by decide]
  rfl

theorem mined_of {E : Env} {target : Int} (h1 : 1 ≤ target) (h2 : target ≤ 32) {e e' : Event} {threads : Bool}
    (h : Mining E target e threads (.ok e')) :
    ∃ k, Mined E.crypto E.build e target k e' ∧ (target : Int) ≤ difficulty e'.id ∧ verifyPow e' target = .ok () := by
  have key : ∀ k, Mined E.crypto E.build e target k e' → verifyPow e' target = .ok () → 
      ∃ k, Mined E.crypto E.build e target k e' ∧ (target : Int) ≤ difficulty e'.id ∧ verifyPow e' target = .ok () := by
    intro k hm hv
    refine ⟨k, hm, ?_, hv⟩
    unfold verifyPow at hv
    rw [if_neg (by omega)] at hv
    split at hv
    · simp at hv
    · dsimp only at hv
      split at hv
      · simp at hv
      · split at hv
        · simp at hv
        · omega
  cases h with
  | alone _ fuel r hm =>
    obtain ⟨k, m1, -, -, m4⟩ := C12_mining_sound E (by omega) hm
    exact key _ m1 m4
  | together n e1 s h0 hs hok =>
    obtain ⟨i, -, -, -, m1, m2⟩ := C13_one_winner h1 h0 hs hok
    exact key _ m1 (m2 (by omega))

/-- Computing the id of an event that has its id changes nothing. -/
theorem computeId_again {C : Crypto} {b : Build} {e : Event} {t : Bytes} (h : serialize b e = .ok t) (hi : e.id = C.sha256 t) :
    computeId C b e = .ok e := by
  unfold computeId
  rw [h, Res.bind_ok, ← hi]

/-- What the program is to print for the event `e`, in a build that can write JSON. -/
def Good (E : Env) (key : Bytes) (target : Int) (e : Event) (j : Bytes) (o : Screen) : Prop :=
  e.pubkey = key ∧ e.kind = 1 ∧ e.content = some words ∧
  (∃ k : Nat, e.tags = [[c!"nonce", Num.decNat k, Num.decInt target]]) ∧
  (∃ t, serialize E.build e = .ok t ∧ e.id = E.crypto.sha256 t) ∧
  ∃ d : Nat, target ≤ d ∧ (∀ i < d, bitAt e.id i = false) ∧ (d < 8 * e.id.length → bitAt e.id d = true) ∧
    o = ⟨true, some d, some (Hex.hexEncode e.id), some true, some j, 0⟩

/-- What a run that reports success has computed. -/
theorem shown {E : Env} {key : Bytes} {now : Int} {args : List Bytes} {o : Screen}
    (h : Shows E key now args (.ok o)) (hm : o.mined = true) :
    ∃ target threads e k, settings args = some (target, threads) ∧ 1 ≤ target ∧ target ≤ 32 ∧
      e.pubkey = key ∧ e.kind = 1 ∧ e.content = some words ∧ e.sig = List.replicate 64 0 ∧
      e.tags = [[c!"nonce", Num.decNat k, Num.decInt target]] ∧
      (∃ t, serialize E.build e = .ok t ∧ e.id = E.crypto.sha256 t) ∧ target ≤ (difficulty e.id : Int) ∧
      verifyPow e target = .ok () ∧ tell E.build target e = .ok o := by
  obtain ⟨target, threads, e, r, h1, h2, h3, h4⟩ := h
  obtain ⟨t1, t2⟩ := settings_range h1
  cases r with
  | ub => simp [report] at h4
  | err x => simp only [report, Res.ok.injEq] at h4; subst h4; simp at hm
  | ok e' =>
    obtain ⟨k, m, d, v⟩ := mined_of t1 t2 h3
    obtain ⟨t, s1, s2⟩ := m.id
    rw [report, computeId_again s1 s2] at h4
    have he := prepare_eq t1 h2
    have htags := m.tags
    rw [he] at htags
    refine ⟨target, threads, e', k, h1, t1, t2, by rw [m.pubkey, he], by rw [m.kind, he], by rw [m.content, he], by rw [m.sig, he]; rfl, ?_,
      ⟨t, s1, s2⟩, d, v, h4.symm⟩
    rcases htags with ⟨n1, -⟩ | ⟨pre, w, rest, post, n1, n2, n3⟩
    · exact absurd rfl (n1 _ (List.mem_singleton.2 rfl))
    · cases pre with
      | nil =>
        simp only [List.nil_append, List.cons.injEq, true_and] at n1
        obtain ⟨⟨-, rfl⟩, rfl⟩ := n1
        simpa using n3
      | cons p ps => simp at n1

/-- **C216** (part). Whenever the program, built with cJSON, with any arguments, any key and any clock, alone or with any number of threads and
any schedule, says that mining has succeeded, it shows: the difficulty, which is the exact number of leading zero bits of the id
and at least the target asked for; the id of the event in hex; PASSED; the event's JSON, from which the event is read back; and it ends with status 0. The event
has the generated key, kind 1, the content of the program and one tag, the nonce with its target. Missing: the event is
not signed (`C216_unsigned_refuted`), and without cJSON the status is 1 (`C216_exit_refuted`). -/
theorem C216_shown_partial (P : Plat) {E : Env} {td : Int → Int} {fr : Int → Bytes} (hb : E.build = .cjson td fr)
    (hash : ∀ t, (E.crypto.sha256 t).length = 32) {key : Bytes} (hk : key.length = 32) {now : Int} {args : List Bytes} {o : Screen}
    (h : Shows E key now args (.ok o)) (hm : o.mined = true) :
    ∃ target threads e j, settings args = some (target, threads) ∧ 1 ≤ target ∧ Good E key target e j o ∧
      (e.createdAt.natAbs < 10 ^ 15 → (∀ c ∈ E.cfg, 1 ≤ c.maxTags ∧ words.length ≤ c.maxContent) →
        fromJson P E.build E.cfg j = .ok e) := by
  obtain ⟨target, threads, e, k, h1, t1, t2, a1, a2, a3, a4, a5, a6, a7, a8, a9⟩ := shown h hm
  obtain ⟨t, s1, s2⟩ := a6
  rw [tell, hb] at a9
  simp only [toJson, Res.ok.injEq, a8, decide_true] at a9
  obtain ⟨d1, d2, d3⟩ := difficulty_spec e.id
  refine ⟨target, threads, e, _, h1, t1, ⟨a1, a2, a3, ⟨k, a5⟩, ⟨t, s1, s2⟩, difficulty e.id, a7, d2, d3, a9.symm⟩, fun ht hc => ?_⟩
  have hw : WF e := by
    refine ⟨by rw [s2]; exact hash t, by rw [a1]; exact hk, by rw [a4]; simp, by omega, by rw [a2]; decide, ?_, ?_⟩
    · rw [a5]
      intro u hu
      rw [List.mem_singleton] at hu
      subst hu
      refine ⟨by simp, fun v hv => ?_⟩
      simp only [List.mem_cons, List.not_mem_nil, or_false] at hv
      rcases hv with rfl | rfl | rfl
      · decide
      · exact fun h => absurd (Num.decNat_digits k 0 h) (by decide)
      · exact fun h => absurd (Num.decInt_chars target 0 h) (by decide)
    · rw [Event.text, a3]; decide
  obtain ⟨s, r1, r2⟩ := C20_roundtrip_partial P E.cfg td fr hw ht (by
    intro c hcc
    rw [a5, Event.text, a3]
    exact hc c hcc)
  simp only [toJson, Res.ok.injEq] at r1
  rw [hb, r1, r2, Event.text, a3, Option.getD_some, ← a3]

/-- **C216, the way out.** If the author signs the event shown with the generated key, it verifies and keeps its id, so that the work is
not lost. (The program does not do it.) -/
theorem C216_signed {E : Env} (hC : CryptoOK E.crypto) {key : Bytes} {target : Int} {e : Event} {j : Bytes} {o : Screen}
    (hg : Good E key target e j o) {sk rand s : Bytes} (hp : E.crypto.pubOf sk = some key) (hs : E.crypto.sign sk e.id rand = some s) :
    ∃ e', sign E.crypto E.build (some rand) sk e = .ok e' ∧ e'.id = e.id ∧ e'.tags = e.tags ∧ verify E.crypto E.build e' = .ok () ∧
      (verifyPow e target = .ok () → verifyPow e' target = .ok ()) := by
  obtain ⟨a1, -, -, -, ⟨t, s1, s2⟩, -⟩ := hg
  have he : ({ e with pubkey := key } : Event) = e := by rw [← a1]
  have hsign : sign E.crypto E.build (some rand) sk e = .ok { e with sig := s } := by
    simp only [sign, hp, he, computeId_again s1 s2, Res.bind_ok, hs]
  exact ⟨_, hsign, rfl, rfl, (C19_signed_verifies hC hsign).1, fun h => h⟩

/-- **C216 fails**: the event shown is never signed. With a scheme that does not accept a signature of zeros, no run of the program shows an
event that verifies. -/
theorem C216_unsigned_refuted {E : Env} (hz : ∀ key id, E.crypto.verify key id (List.replicate 64 0) = false)
    {td : Int → Int} {fr : Int → Bytes} (hb : E.build = .cjson td fr) {key : Bytes} {now : Int}
    {args : List Bytes} {o : Screen} (h : Shows E key now args (.ok o)) (hm : o.mined = true) :
    ∃ target e j, Good E key target e j o ∧ toJson E.build e = .ok j ∧ verify E.crypto E.build e ≠ .ok () := by
  obtain ⟨target, threads, e, k, h1, t1, t2, a1, a2, a3, a4, a5, ⟨t, s1, s2⟩, a7, a8, a9⟩ := shown h hm
  rw [tell, hb] at a9
  simp only [toJson, Res.ok.injEq, a8, decide_true] at a9
  obtain ⟨d1, d2, d3⟩ := difficulty_spec e.id
  refine ⟨target, e, _, ⟨a1, a2, a3, ⟨k, a5⟩, ⟨t, s1, s2⟩, difficulty e.id, a7, d2, d3, a9.symm⟩, by rw [hb]; rfl, ?_⟩
  intro hv
  unfold verify at hv
  rw [computeId_again s1 s2, Res.bind_ok, a4, hz] at hv
  split at hv
  · simp at hv
  · split at hv
    · simp at hv
    · simp at hv

/-- **C216 fails** in the build without cJSON: the event cannot be written, and the program ends with status 1 although mining and verification have
succeeded. -/
theorem C216_exit_refuted {E : Env} (hb : E.build = .plain) {key : Bytes} {now : Int} {args : List Bytes} {o : Screen}
    (h : Shows E key now args (.ok o)) (hm : o.mined = true) : o.passed = some true ∧ o.json = none ∧ o.exit = 1 := by
  obtain ⟨target, threads, e, k, h1, t1, t2, a1, a2, a3, a4, a5, a6, a7, a8, a9⟩ := shown h hm
  rw [tell, hb] at a9
  simp only [toJson, Res.ok.injEq, a8, decide_true] at a9
  subst a9
  exact ⟨rfl, rfl, rfl⟩

/-- A scheme whose only signature is 64 ones; the hash is the beginning of the text, which starts with `[`, so that one bit is zero. -/
def ones : Crypto where
  sha256 t := (t ++ List.replicate 32 0).take 32
  pubOf sk := some sk
  sign _ _ _ := some (List.replicate 64 1)
  validPub _ := true
  verify _ _ s := s == List.replicate 64 1

/-- A run of the program with the argument 1, in either build. -/
def toy (b : Build) : Env := ⟨none, ones, b, fun _ => 1700000000⟩

/-- The event it starts with. -/
def toyStart : Event :=
  { zero with kind := 1, pubkey := List.replicate 32 7, createdAt := 5, content := some words, tags := [[c!"nonce", c!"0", c!"1"]] }

theorem toy_shows {b : Build} (good : Screen → Bool)
    (h : (match mine (toy b) 1 0 1 toyStart with
      | some r => (match report ones b 1 r with | .ok o => good o | _ => false)
      | none => false) = true) : ∃ o, Shows (toy b) (List.replicate 32 7) 5 [c!"1"] (.ok o) ∧ good o = true := by
  split at h
  · rename_i r hr
    split at h
    · rename_i o ho
      exact ⟨o, ⟨1, false, toyStart, r, by decide +kernel, (by decide +kernel : prepare none (List.replicate 32 7) 5 1 = .ok toyStart),
        .alone _ 1 _ hr, ho.symm⟩, h⟩
    · simp at h
  · simp at h

/-! Non-vacuity: a run in each build that reports success. -/

example : ∃ o, Shows (toy (.cjson id fun _ => [])) (List.replicate 32 7) 5 [c!"1"] (.ok o) ∧
    (o.mined && (o.exit == 0) && (o.achieved == some 1)) = true := toy_shows _ (by decide +kernel)

example : ∃ o, Shows (toy .plain) (List.replicate 32 7) 5 [c!"1"] (.ok o) ∧ o.mined = true := toy_shows _ (by decide +kernel)

example : CryptoOK ones ∧ (∀ key id, ones.verify key id (List.replicate 64 0) = false) ∧
    ones.pubOf (List.replicate 32 7) = some (List.replicate 32 7) :=
  ⟨⟨fun t => by simp [ones], fun _ _ _ => rfl, fun _ _ _ _ _ _ h => by simp only [ones, Option.some.injEq] at h; subst h; rfl⟩,
    fun _ _ => rfl, rfl⟩

end Nostr.Nip13.Example.Props
