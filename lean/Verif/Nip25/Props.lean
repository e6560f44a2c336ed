import Verif.Nip25.Model
import Verif.Nip18.Props

/-! # Property theorems: C54 -/

namespace Nostr.Nip25.Props
open Nostr Nostr.Nip25 Nostr.Event
open Nostr.Nip18.Spec (Hex64 IsE)
open Nostr.Nip10.Props (addTag_ok)
open Nostr.Nip18.Props (copy_fits)

theorem kindOf_dec {n : Nat} (h : n ≤ 65535) : kindOf (Num.decNat n) = some n := by
  have := Num.scanDec_decNat (n := n) (rest := []) (by simp)
  rw [List.append_nil] at this
  unfold kindOf
  rw [this]
  simp only [Bool.false_eq_true, if_false]
  rw [if_neg (by omega), Nat.min_eq_left h]

/-- What a created reaction looks like. -/
theorem create_ok {cfg : Option Config.Config} {now : Int} {content relay : Option Bytes} {id pk : Bytes} {kind : Nat} {e : Event}
    (h : create cfg now content id pk relay kind = .ok e) :
    Hex64 id ∧ Hex64 pk ∧
    e = ⟨zero.id, zero.pubkey, now, 7, [[c!"e", id, relay.getD [], pk], [c!"p", pk] ++ relay.toList] ++
      (if kind > 0 then [[c!"k", Num.decNat kind]] else []), some (content.getD (c!"+")), zero.sig⟩ := by
  unfold create at h
  split at h
  · cases h
  rename_i hh
  rw [not_or] at hh
  obtain ⟨e1, h1, k1⟩ := Res.bind_eq_ok.1 h
  obtain ⟨e2, h2, k2⟩ := Res.bind_eq_ok.1 k1
  have g1 := addTag_ok h1
  have g2 := addTag_ok h2
  refine ⟨(Nip51.hex64_iff id).1 (by simpa using hh.1), (Nip51.hex64_iff pk).1 (by simpa using hh.2), ?_⟩
  by_cases hk : kind > 0
  · rw [if_pos hk] at k2
    have g3 := addTag_ok k2
    subst g3; subst g2; subst g1; simp [hk, zero]
  · rw [if_neg hk] at k2
    simp only [Res.ok.injEq] at k2
    subst k2; subst g2; subst g1; simp [hk, zero]

/-- **C54** (round trip): a created reaction is of kind 7 and parses back to its content (`+` when none was given), target
id, target author and target kind, for buffers that can hold them. -/
theorem C54_roundtrip (cfg : Option Config.Config) (now : Int) (content relay : Option Bytes) (id pk : Bytes) (kind : Nat) (e : Event)
    (hk : kind ≤ 65535) (h : create cfg now content id pk relay kind = .ok e) :
    e.kind = 7 ∧ e.createdAt = now ∧
    ∀ n m c, 65 ≤ n → 65 ≤ m → (content.getD (c!"+")).length < c →
      parse e c n m = .ok (content.getD (c!"+"), id, pk, kind) := by
  obtain ⟨hi, hp, rfl⟩ := create_ok h
  have li := hi.1
  have lp := hp.1
  refine ⟨rfl, rfl, ?_⟩
  intro n m c hn hm hc
  unfold parse
  simp only
  rw [if_neg (by decide)]
  by_cases hk0 : kind > 0
  · cases relay <;> simp [hk0, scanTag, kindOf_dec hk, copy_fits (show id.length < n by omega), copy_fits (show pk.length < m by omega), copy_fits hc]
  · have : kind = 0 := by omega
    cases relay <;> simp [this, scanTag, copy_fits (show id.length < n by omega), copy_fits (show pk.length < m by omega), copy_fits hc]

/-- **C54** (creation): it succeeds for every pair of hex ids when at least three tags are allowed, and fails for anything
that is not 64 hex digits. -/
theorem C54_create (cfg : Option Config.Config) (now : Int) (content relay : Option Bytes) (id pk : Bytes) (kind : Nat)
    (hc : ∀ c ∈ cfg, 3 ≤ c.maxTags) :
    (∃ e, create cfg now content id pk relay kind = .ok e) ↔ Hex64 id ∧ Hex64 pk := by
  constructor
  · rintro ⟨e, h⟩
    obtain ⟨h1, h2, _⟩ := create_ok h
    exact ⟨h1, h2⟩
  · rintro ⟨h1, h2⟩
    have ok : ∀ (e1 : Event) (v : List Bytes), v ≠ [] → e1.tags.length < 3 →
        addTag cfg e1 v = .ok { e1 with tags := e1.tags ++ [v] } := by
      intro e1 v hv hl
      unfold addTag
      rw [if_neg hv]
      cases cfg with
      | none => rfl
      | some c =>
        have := hc c rfl
        simp only [Option.any_some, decide_eq_true_eq]
        rw [if_neg (by omega)]
    have g1 := (Nip51.hex64_iff id).2 h1
    have g2 := (Nip51.hex64_iff pk).2 h2
    unfold create
    rw [if_neg (by simp [g1, g2])]
    simp only
    rw [ok _ _ (by simp) (by simp [zero]), Res.bind_ok, ok _ _ (by simp) (by simp [zero]), Res.bind_ok]
    split
    · exact ⟨_, ok _ _ (by simp) (by simp [zero])⟩
    · exact ⟨_, rfl⟩

/-- **C54** (classification): for a reaction the answers depend on the content alone: liked exactly for a missing or empty
content or `+`, disliked exactly for `-`, never both; other kinds are refused. -/
theorem C54_classify (e : Event) :
    (e.kind = 7 → ∃ l d, isLike e = .ok l ∧ isDislike e = .ok d ∧
      (l = true ↔ e.content = none ∨ e.content = some [] ∨ e.content = some (c!"+")) ∧ (d = true ↔ e.content = some (c!"-")) ∧
      ¬ (l = true ∧ d = true)) ∧
    (e.kind ≠ 7 → isLike e = .err .invalidEvent ∧ isDislike e = .err .invalidEvent) := by
  constructor
  · intro hk
    unfold isLike isDislike
    rw [if_neg (by simp [hk]), if_neg (by simp [hk])]
    refine ⟨_, _, rfl, rfl, by simp [or_assoc], by simp, ?_⟩
    intro ⟨h1, h2⟩
    have h2' : e.content = some (c!"-") := by simpa using h2
    rw [h2'] at h1
    revert h1
    decide
  · intro hk
    unfold isLike isDislike
    rw [if_pos hk, if_pos hk]
    exact ⟨rfl, rfl⟩

/-- **C54** (any reaction): the reported target is the last event reference of the event. -/
theorem C54_last (e : Event) (hk : e.kind = 7) (pre post : List (List Bytes)) (id : Bytes) (rest : List Bytes)
    (ht : e.tags = pre ++ (c!"e" :: id :: rest) :: post) (hno : ∀ t ∈ post, ¬ IsE t) (c n m : Nat) (hn : id.length < n) :
    ∃ content pk kind, parse e c n m = .ok (content, id, pk, kind) := by
  have others : ∀ (ts : List (List Bytes)), (∀ t ∈ ts, ¬ IsE t) → ∀ f : Found, (ts.foldl scanTag f).id = f.id := by
    intro ts
    induction ts with
    | nil => intro _ f; rfl
    | cons t ts ih =>
      intro h f
      rw [List.foldl_cons, ih (fun x hx => h x (by simp [hx]))]
      have ht := h t (by simp)
      unfold scanTag
      split
      · rename_i name value rest
        rw [if_neg (fun hn => ht ⟨value, rest, by rw [hn]⟩)]
        split
        · rfl
        · split <;> rfl
      · rfl
  unfold parse
  rw [if_neg (by simp [hk])]
  simp only
  rw [ht, List.foldl_append, List.foldl_cons]
  generalize pre.foldl scanTag _ = f
  have h0 := others post hno (scanTag f (c!"e" :: id :: rest))
  generalize post.foldl scanTag (scanTag f (c!"e" :: id :: rest)) = g at h0 ⊢
  have hid : g.id = some id := by rw [h0]; simp [scanTag]
  rw [hid]
  simp only [Option.isSome_some, if_true]
  exact ⟨_, _, _, by rw [copy_fits hn]⟩

example : ∃ e, create none 5 none (List.replicate 64 0x61) (List.replicate 64 0x62) (some (c!"wss://r")) 1 = .ok e ∧
    parse e 10 65 65 = .ok (c!"+", List.replicate 64 0x61, List.replicate 64 0x62, 1) ∧ isLike e = .ok true := by
  obtain ⟨e, he⟩ := (C54_create none 5 none (some (c!"wss://r")) (List.replicate 64 0x61) (List.replicate 64 0x62) 1 (by simp)).2
    ⟨⟨by decide, fun c hc => by rw [List.eq_of_mem_replicate hc]; unfold Hex.Spec.IsHexDigit; decide⟩,
     ⟨by decide, fun c hc => by rw [List.eq_of_mem_replicate hc]; unfold Hex.Spec.IsHexDigit; decide⟩⟩
  obtain ⟨h1, _, h2⟩ := C54_roundtrip _ _ _ _ _ _ _ _ (by decide) he
  refine ⟨e, he, h2 65 65 10 (by decide) (by decide) (by decide), ?_⟩
  obtain ⟨_, _, rfl⟩ := create_ok he
  rfl

end Nostr.Nip25.Props
