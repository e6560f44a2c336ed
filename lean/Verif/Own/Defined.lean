import Verif.Gift.Model
import Verif.Nip46.Model
import Verif.Nip51.Props
import Verif.Nip44.Props
import Verif.Event.Lemmas

/-!
# Where the computation of an event is free of undefined behaviour

Lemmas about the models of event ids, signatures, encryption, private messages, wallet requests and lists; used for C147, C150, C151.
-/

namespace Nostr.Own.Defined
open Nostr Nostr.Event

theorem bind_ub {α β} {r : Res α} {f : α → Res β} (hr : r ≠ .ub) (hf : ∀ a, r = .ok a → f a ≠ .ub) : (r >>= f) ≠ .ub := by
  cases r with
  | ok a => exact hf a rfl
  | err e => intro h; cases h
  | ub => exact absurd rfl hr

/-- Removing the padding is defined for all bytes. -/
theorem unpad_defined (cfg : Option Config.Config) : ∀ p, Nip44.unpad cfg p ≠ .ub := by
  intro p
  unfold Nip44.unpad
  split
  · rename_i b0 b1 rest
    have hb0 := b0.toNat_lt
    have hb1 := b1.toNat_lt
    simp only
    split
    · simp
    · split
      · simp
      · rename_i hl
        have := (Nip44.paddedLen_ge (len := b0.toNat * 256 + b1.toNat) (by omega)).1
        simp only [List.length_cons, ne_eq, Decidable.not_not] at hl
        rw [if_neg (by omega)]
        simp
  · simp

/-- Decrypting is defined for every text. -/
theorem decrypt_defined (N : Nip44.Nc) (B : Nip44.B64) (cfg : Option Config.Config) (sk pk t : Bytes) : Nip44.decrypt N B cfg sk pk t ≠ .ub := by
  unfold Nip44.decrypt Nip44.decryptPayload
  split
  · simp
  · split
    · simp
    · split
      · simp
      · split
        · simp
        · simp only
          split
          · simp
          · split
            · simp
            · exact unpad_defined _ _

/-- Padding is defined for every text, if the configuration is valid. -/
theorem pad_defined {cfg : Option Config.Config} (hc : Nip44.Spec.CfgOK cfg) (m : Bytes) : Nip44.pad cfg m ≠ .ub := by
  by_cases h : m.length < Nip44.minSize cfg ∨ m.length > Nip44.maxSize cfg
  · unfold Nip44.pad
    rw [if_pos h]
    simp
  · obtain ⟨p, e, -⟩ := Nip44.Props.C14_roundtrip hc (m := m) (by omega) (by omega)
    rw [e]
    simp

/-- Encrypting is defined for every text, if the configuration is valid. -/
theorem encrypt_defined (N : Nip44.Nc) (B : Nip44.B64) {cfg : Option Config.Config} (hc : Nip44.Spec.CfgOK cfg) (nonce : Option Bytes) (sk pk m : Bytes) :
    Nip44.encrypt N B cfg nonce sk pk m ≠ .ub := by
  unfold Nip44.encrypt
  split
  · simp
  · refine bind_ub (pad_defined hc m) fun p _ => ?_
    split <;> simp

/-- What the serialiser without cJSON needs. -/
structure Small (e : Event) : Prop where
  key : e.pubkey.length = 32
  time : -2 ^ 63 - 2 ^ 20 ≤ e.createdAt ∧ e.createdAt ≤ 2 ^ 63 - 1
  kind : e.kind < 65536
  tags : ∀ t ∈ e.tags, t ≠ []
  few : e.tags.length ≤ 300

theorem serialize_defined (b : Build) (e : Event) (h : b = .plain → Small e) : serialize b e ≠ .ub := by
  cases b with
  | cjson td fr => simp [serialize]
  | plain =>
    obtain ⟨h1, ⟨h2, h2'⟩, h3, h4, h5⟩ := h rfl
    unfold serialize
    simp only
    rw [ne_eq, serializePlain_ub]
    have k1 := hexEncode_length e.pubkey
    have k2 : (Num.decInt e.createdAt).length ≤ 21 := by
      have := Num.decNat_length (n := e.createdAt.natAbs) (k := 20) (by omega) (by omega)
      unfold Num.decInt
      split <;> simp <;> omega
    have k3 := Num.decNat_length (n := e.kind) (k := 5) (by omega) (by omega)
    have k4 := tagsText_length e.tags h4
    have k5 := tagsText_first e.tags
    have k6 : e.tags.countP Spec.thin ≤ e.tags.length := List.countP_le_length
    unfold idHead jsonSize
    simp only [List.length_append, List.length_cons, List.length_nil]
    omega

theorem computeId_defined (C : Crypto) (b : Build) (e : Event) (h : b = .plain → Small e) : computeId C b e ≠ .ub :=
  bind_ub (serialize_defined b e h) fun _ _ => by simp

/-- Public keys have 32 bytes. -/
def Keys32 (C : Crypto) : Prop := ∀ sk pk, C.pubOf sk = some pk → pk.length = 32

theorem sign_defined {C : Crypto} (hK : Keys32 C) (b : Build) (aux : Option Bytes) (sk : Bytes) (e : Event)
    (h : b = .plain → Small { e with pubkey := List.replicate 32 0 }) : sign C b aux sk e ≠ .ub := by
  unfold sign
  split
  · simp
  · rename_i pk hpk
    refine bind_ub (computeId_defined C b _ fun hb => ?_) fun e1 _ => ?_
    · obtain ⟨-, h2, h3, h4, h5⟩ := h hb
      exact ⟨hK _ _ hpk, h2, h3, h4, h5⟩
    · split
      · simp
      · split <;> simp

theorem verify_defined (C : Crypto) (b : Build) (e : Event) (h : b = .plain → Small e) : verify C b e ≠ .ub := by
  refine bind_ub (computeId_defined C b e h) fun _ _ => ?_
  split
  · simp
  · split
    · simp
    · split <;> simp

theorem addTag_defined (cfg : Option Config.Config) (e : Event) (t : List Bytes) : addTag cfg e t ≠ .ub := by
  unfold addTag
  split
  · simp
  · split <;> simp

/-- The tag is appended, or the call fails. -/
theorem addTag_ok {cfg : Option Config.Config} {e e1 : Event} {t : List Bytes} (h : addTag cfg e t = .ok e1) :
    e1 = { e with tags := e.tags ++ [t] } := by
  unfold addTag at h
  split at h
  · simp at h
  · split at h
    · simp at h
    · exact (Res.ok.inj h).symm

theorem pairTags_defined (cfg : Option Config.Config) : ∀ (l : List Bytes) (e : Event), Gift.pairTags cfg e l ≠ .ub
  | [], e => by simp [Gift.pairTags]
  | [_], e => by simp [Gift.pairTags]
  | a :: b :: ts, e => by
    rw [Gift.pairTags]
    exact bind_ub (addTag_defined _ _ _) fun e1 _ => pairTags_defined cfg ts e1

/-! ## Private messages -/

theorem toJson_defined (b : Build) (e : Event) : toJson b e ≠ .ub := by cases b <;> simp [toJson]

/-- Without cJSON no event is printed. -/
theorem toJson_ok {b : Build} {e : Event} {t : Bytes} (h : toJson b e = .ok t) : b ≠ .plain := by
  rintro rfl
  simp [toJson] at h

/-- A time of the clock. -/
def Clock (t : Int) : Prop := -2 ^ 63 ≤ t ∧ t ≤ 2 ^ 63 - 1

theorem rumor_small {now : Int} {kind : Nat} {pk : Bytes} {c : Option Bytes} (hp : pk.length = 32) (hk : kind < 65536) (ht : Clock now) :
    Small { zero with kind := kind, pubkey := pk, createdAt := now, content := c } :=
  ⟨hp, ⟨Int.le_trans (by decide) ht.1, ht.2⟩, hk, by intro t h; simp [zero] at h, by simp [zero]⟩

theorem createRumor_defined (E : Gift.Env) {now createdAt : Int} {kind : Nat} {pk : Bytes} (hp : pk.length = 32) (hk : kind < 65536)
    (ht : Clock now) (ht' : Clock createdAt) (content : Bytes) : Gift.createRumor E now kind pk content createdAt ≠ .ub := by
  refine bind_ub (computeId_defined _ _ _ fun _ => rumor_small hp hk ?_) fun _ _ => by simp
  split
  · exact ht'
  · exact ht

theorem createRumor59_defined (E : Gift.Env) {now : Int} {kind : Nat} {pk : Bytes} (hp : pk.length = 32) (hk : kind < 65536)
    (ht : Clock now) (content : Option Bytes) : Gift.createRumor59 E now kind pk content ≠ .ub :=
  bind_ub (computeId_defined _ _ _ fun _ => rumor_small hp hk ht) fun _ _ => by simp

theorem sealOf_defined {E : Gift.Env} (hb : E.build ≠ .plain) (aux : Option Bytes) (sk : Bytes) (time : Int) (ct : Bytes) :
    Gift.sealOf E aux sk time ct ≠ .ub := by
  unfold Gift.sealOf
  split
  · simp
  · refine bind_ub (computeId_defined _ _ _ fun h => absurd h hb) fun e _ => ?_
    unfold sign
    split
    · simp
    · refine bind_ub (computeId_defined _ _ _ fun h => absurd h hb) fun e _ => ?_
      split
      · simp
      · split <;> simp

theorem pastTwoDays_defined (now : Int) (o : Option Nat) : Gift.pastTwoDays now o ≠ .ub := by
  cases o <;> simp [Gift.pastTwoDays]

theorem createSeal_defined {E : Gift.Env} (hc : Nip44.Spec.CfgOK E.cfg) (D : Gift.Draw) (rumor : Event) (sk rpk : Bytes) :
    Gift.createSeal E D rumor sk rpk ≠ .ub ∧ Gift.createSeal59 E D rumor sk rpk ≠ .ub :=
  ⟨bind_ub (toJson_defined _ _) fun _ h => bind_ub (encrypt_defined _ _ hc _ _ _ _) fun _ _ =>
      bind_ub (pastTwoDays_defined _ _) fun _ _ => sealOf_defined (toJson_ok h) _ _ _ _,
    bind_ub (toJson_defined _ _) fun _ h => bind_ub (encrypt_defined _ _ hc _ _ _ _) fun _ _ => sealOf_defined (toJson_ok h) _ _ _ _⟩

theorem wrapOf_defined {E : Gift.Env} (hb : E.build ≠ .plain) (aux : Option Bytes) (esk epk rpk : Bytes) (time : Int) (extra : List Bytes) (ct : Bytes) :
    Gift.wrapOf E aux esk epk rpk time extra ct ≠ .ub := by
  refine bind_ub (addTag_defined _ _ _) fun _ _ => bind_ub (pairTags_defined _ _ _) fun _ _ =>
    bind_ub (computeId_defined _ _ _ fun h => absurd h hb) fun e _ => ?_
  unfold sign
  split
  · simp
  · refine bind_ub (computeId_defined _ _ _ fun h => absurd h hb) fun e _ => ?_
    split
    · simp
    · split <;> simp

theorem createWrap_defined {E : Gift.Env} (hc : Nip44.Spec.CfgOK E.cfg) (D : Gift.Draw) {eph : Res (Bytes × Bytes)} (he : eph ≠ .ub) (sl : Event)
    (rpk : Bytes) (extra : List Bytes) : Gift.createWrap E D eph sl rpk ≠ .ub ∧ Gift.createWrap59 E D eph sl rpk extra ≠ .ub :=
  ⟨bind_ub he fun _ _ => bind_ub (toJson_defined _ _) fun _ h => bind_ub (encrypt_defined _ _ hc _ _ _ _) fun _ _ =>
      bind_ub (pastTwoDays_defined _ _) fun _ _ => wrapOf_defined (toJson_ok h) _ _ _ _ _ _ _,
    bind_ub he fun _ _ => bind_ub (toJson_defined _ _) fun _ h => bind_ub (encrypt_defined _ _ hc _ _ _ _) fun _ _ =>
      wrapOf_defined (toJson_ok h) _ _ _ _ _ _ _⟩

theorem wrapEvent_defined {E : Gift.Env} (hc : Nip44.Spec.CfgOK E.cfg) (D1 D2 : Gift.Draw) {eph : Res (Bytes × Bytes)} (he : eph ≠ .ub)
    (event : Event) (sk rpk : Bytes) : Gift.wrapEvent E D1 D2 eph event sk rpk ≠ .ub :=
  bind_ub (createSeal_defined hc _ _ _ _).2 fun _ _ => (createWrap_defined hc _ he _ _ _).2

theorem addAll_defined (cfg : Option Config.Config) (ts : List (List Bytes)) : ∀ e, Gift.addAll cfg e ts ≠ .ub := by
  induction ts with
  | nil => intro e; simp [Gift.addAll]
  | cons t ts ih => intro e; exact bind_ub (addTag_defined _ _ _) fun e1 _ => ih e1

theorem sendDm_defined {E : Gift.Env} (hc : Nip44.Spec.CfgOK E.cfg) (hK : Keys32 E.crypto) (D1 D2 : Gift.Draw) {eph : Res (Bytes × Bytes)}
    (he : eph ≠ .ub) (content sk rpk : Bytes) (subject replyTo : Option Bytes) {createdAt : Int} (ht : Clock D1.now) (ht' : Clock createdAt) :
    Gift.sendDm E D1 D2 eph content sk rpk subject replyTo createdAt ≠ .ub := by
  refine bind_ub ?_ fun _ _ => bind_ub (createSeal_defined hc _ _ _ _).1 fun _ _ => (createWrap_defined hc _ he _ _ []).1
  unfold Gift.dmRumor
  split
  · simp
  · rename_i pk hpk
    exact bind_ub (createRumor_defined E (hK _ _ hpk) (by decide) ht ht' content) fun _ _ => addAll_defined _ _ _

/-! ## Opening -/

theorem hexField_defined (P : Plat) (root : Json.Json) (key : Bytes) (n : Nat) (old : Bytes) : hexField P root key n old ≠ .ub := by
  unfold hexField
  split
  · simp
  · split <;> simp

theorem addTags_defined (cfg : Option Config.Config) (js : List Json.Json) : ∀ e, addTags cfg e js ≠ .ub := by
  induction js with
  | nil => intro e; simp [addTags]
  | cons j js ih =>
    intro e
    rw [addTags]
    split
    · split
      · exact ih _
      · simp
      · rename_i h
        exact absurd h (addTag_defined _ _ _)
    · exact ih _

theorem fromJson_defined (P : Plat) (b : Build) (cfg : Option Config.Config) (s : Bytes) : fromJson P b cfg s ≠ .ub := by
  unfold fromJson
  split
  · simp
  · split
    · simp
    · refine bind_ub (hexField_defined _ _ _ _ _) fun _ _ => bind_ub (hexField_defined _ _ _ _ _) fun _ _ => bind_ub ?_ fun _ _ =>
        bind_ub ?_ fun _ _ => bind_ub (hexField_defined _ _ _ _ _) fun _ _ => by simp
      · unfold contentField
        split
        · simp
        · split <;> simp
      · unfold tagsField
        split
        · simp
        · split
          · simp
          · exact addTags_defined _ _ _

theorem open_defined (E : Gift.Env) (sk pk : Bytes) (c : Option Bytes) : Gift.open_ E sk pk c ≠ .ub := by
  unfold Gift.open_
  split
  · simp
  · exact bind_ub (decrypt_defined _ _ _ _ _ _) fun _ _ => fromJson_defined _ _ _ _

theorem openSeal_defined (E : Gift.Env) (wrap : Event) (sk : Bytes) : Gift.openSeal E wrap sk ≠ .ub := by
  unfold Gift.openSeal
  split
  · simp
  · refine bind_ub (open_defined _ _ _ _) fun sl hsl => ?_
    split
    · simp
    · refine bind_ub (verify_defined _ _ _ fun hb => ?_) fun _ _ => by simp
      unfold Gift.open_ at hsl
      split at hsl
      · simp at hsl
      · rw [hb] at hsl
        cases hd : Nip44.decrypt E.nc E.b64 E.cfg sk wrap.pubkey ‹_› <;> rw [hd] at hsl <;> cases hsl

theorem unwrap_defined (E : Gift.Env) (wrap : Event) (sk : Bytes) :
    (Gift.unwrapDm E wrap sk).result ≠ .ub ∧ (Gift.unwrapEvent E wrap sk).result ≠ .ub := by
  unfold Gift.unwrapDm Gift.unwrapEvent
  split
  · refine ⟨bind_ub (open_defined _ _ _ _) fun _ _ => ?_, open_defined _ _ _ _⟩
    split <;> simp
  · simp
  · rename_i h
    exact absurd h (openSeal_defined _ _ _)

/-! ## Wallet requests, responses, lists -/

theorem request_defined {E : Nip47.Env} (hc : Nip44.Spec.CfgOK E.cfg) (hK : Keys32 E.crypto) {now : Int} (ht : Clock now) (nonce aux : Option Bytes)
    (sk wallet method paramsJson : Bytes) : Nip47.request E now nonce aux sk wallet method paramsJson ≠ .ub := by
  unfold Nip47.request
  split
  · simp
  · rename_i pk hpk
    refine bind_ub (addTag_defined _ _ _) fun e1 h1 => bind_ub (addTag_defined _ _ _) fun e2 h2 => bind_ub ?_ fun t _ =>
      bind_ub (encrypt_defined _ _ hc _ _ _ _) fun ct _ => ?_
    · unfold Nip47.payload
      split <;> simp
    · have e1' := addTag_ok h1
      have e2' := addTag_ok h2
      subst e1'
      subst e2'
      have sm : Small { ({ zero with kind := 23194, createdAt := now, pubkey := pk } : Event) with
          tags := [[c!"p", Hex.hexEncode wallet], [c!"encryption", c!"nip44_v2"]], content := some ct } :=
        ⟨hK _ _ hpk, ⟨Int.le_trans (by decide) ht.1, ht.2⟩, (by decide : 23194 < 65536), by simp, by simp⟩
      refine bind_ub (computeId_defined _ _ _ fun _ => sm) fun e3 h3 => sign_defined hK _ _ _ _ fun _ => ?_
      unfold computeId at h3
      cases hs : serialize E.build _ <;> rw [hs] at h3 <;> cases h3
      exact ⟨by simp, sm.time, sm.kind, sm.tags, sm.few⟩

theorem answer_defined {C : Crypto} (hK : Keys32 C) (b : Build) (aux : Option Bytes) (sk : Bytes) {e : Event} (h : Small e) :
    (computeId C b e >>= fun e1 => sign C b aux sk e1) ≠ .ub := by
  refine bind_ub (computeId_defined _ _ _ fun _ => h) fun e3 h3 => sign_defined hK _ _ _ _ fun _ => ?_
  unfold computeId at h3
  cases hs : serialize b e <;> rw [hs] at h3 <;> cases h3
  exact ⟨by simp, h.time, h.kind, h.tags, h.few⟩

theorem addP_small {now : Int} (ht : Clock now) (cfg : Option Config.Config) (ct peer : Bytes) :
    Small { zero with kind := Nip46.kind46, createdAt := now, content := some ct } ∧
    Small (Nip46.addP cfg { zero with kind := Nip46.kind46, createdAt := now, content := some ct } peer) := by
  have t : -2 ^ 63 - 2 ^ 20 ≤ now ∧ now ≤ 2 ^ 63 - 1 := ⟨Int.le_trans (by decide) ht.1, ht.2⟩
  refine ⟨⟨by simp [zero], t, (by decide : Nip46.kind46 < 65536), by intro x h; simp [zero] at h, by simp [zero]⟩, ?_⟩
  unfold Nip46.addP addTag
  split
  · rename_i e1 h1
    split at h1
    · simp at h1
    · split at h1
      · simp at h1
      · cases h1
        exact ⟨by simp [zero], t, (by decide : Nip46.kind46 < 65536), by simp [zero], by simp [zero]⟩
  · exact ⟨by simp [zero], t, (by decide : Nip46.kind46 < 65536), by intro x h; simp [zero] at h, by simp [zero]⟩

theorem response_defined {E : Nip47.Env} (hc : Nip44.Spec.CfgOK E.cfg) (hK : Keys32 E.crypto) {now : Int} (ht : Clock now) (r : Bytes → Json.Json)
    (nonce aux : Option Bytes) (p : Nip46.Response) (sk peer : Bytes) : Nip46.createResponse E r now nonce aux p sk peer ≠ .ub :=
  bind_ub (encrypt_defined _ _ hc _ _ _ _) fun _ _ => answer_defined hK _ _ _ (addP_small ht _ _ _).2

theorem listAddAll_defined (cfg : Option Config.Config) (ts : List (List Bytes)) : ∀ e, Nip51.addAll cfg e ts ≠ .ub := by
  induction ts with
  | nil => intro e; simp [Nip51.addAll]
  | cons t ts ih => intro e; exact bind_ub (addTag_defined _ _ _) fun e1 _ => ih e1

theorem list_defined (N : Nip44.Nc) (B : Nip44.B64) {cfg : Option Config.Config} (hc : Nip44.Spec.CfgOK cfg) (now : Int) (nonce : Option Bytes)
    (keys : Option Nip51.Keys) (l : Nip51.Lst) : Nip51.toEvent N B cfg now nonce keys l ≠ .ub := by
  unfold Nip51.toEvent
  split
  · simp
  · refine bind_ub (listAddAll_defined _ _ _) fun e _ => ?_
    split
    · split
      · obtain ⟨t, ht, -⟩ := Nip51.Props.C48_buffer l.items
        rw [ht]
        exact bind_ub (by simp) fun t _ => bind_ub (encrypt_defined N B hc _ _ _ _) fun _ _ => by simp
      · simp
    · simp

end Nostr.Own.Defined
