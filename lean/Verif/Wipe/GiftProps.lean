import Verif.Wipe.Gift
import Verif.Own.Defined
import Verif.Wipe.Spec
import Verif.Gift.Props

/-! # Property theorems: what private messages and gift wraps leave in memory (C165) -/

namespace Nostr.Wipe.Gift.Props
open Nostr Nostr.Event Nostr.Wipe Nostr.Wipe.Gift Nostr.Wipe.Spec
open Nostr.Gift (Env Draw)

abbrev zeros (n : Nat) : Bytes := List.replicate n 0

/-! ## Lemmas -/

theorem gone {b : Bytes} (h : b.length = 32) : wipe 32 b = zeros 32 := by rw [wipe_all h.symm, h]

theorem clean_same {b : Bytes} : Clean [] [b] [b] := Clean.refl _

theorem clean_zero {b : Bytes} (h : b.length = 32) : Clean [] [b] [zeros 32] := ⟨.inr (.inl (by rw [h])), trivial⟩

theorem sealRest_clean {E : Env} {x : Faults} {secret : Bytes} {aux : Option Bytes} {sk : Bytes} {time : Int} {text ct : Bytes} (h : secret.length = 32)
    (hs : sk.length = 32) : (sealRest E x secret aux sk time text ct).locals = [zeros 32] := by
  have e : over 0 sk secret = sk := over_all (by omega)
  unfold sealRest
  simp only [e, gone hs]
  split
  · rfl
  · split
    · rfl
    · split <;> rfl

theorem createSeal_clean {E : Env} {x : Faults} {secret : Bytes} {D : Draw} {rumor : Event} {sk rpk : Bytes} (h : secret.length = 32)
    (hs : sk.length = 32) : Clean [] [secret] (createSeal E x secret D rumor sk rpk).locals := by
  unfold createSeal
  split
  · exact clean_same
  · exact clean_same
  · split
    · exact clean_same
    · exact clean_same
    · split
      · exact clean_same
      · split
        · exact clean_same
        · exact clean_same
        · rw [sealRest_clean h hs]; exact clean_zero h

theorem createSeal59_clean {E : Env} {x : Faults} {secret : Bytes} {D : Draw} {rumor : Event} {sk rpk : Bytes} (h : secret.length = 32)
    (hs : sk.length = 32) : Clean [] [secret] (createSeal59 E x secret D rumor sk rpk).locals := by
  unfold createSeal59
  split
  · exact clean_same
  · exact clean_same
  · split
    · exact clean_same
    · exact clean_same
    · split
      · exact clean_same
      · rw [sealRest_clean h hs]; exact clean_zero h

theorem wrapSeal_clean {E : Env} {x : Faults} {secret : Bytes} {D : Draw} {event : Event} {sk rpk : Bytes} (h : secret.length = 32)
    (hs : sk.length = 32) : Clean [] [secret] (wrapSeal E x secret D event sk rpk).locals := by
  have e : over 0 sk secret = sk := over_all (by omega)
  unfold wrapSeal
  simp only [e, gone hs]
  split
  · exact clean_same
  · exact clean_same
  · split
    · exact clean_same
    · split
      · exact clean_zero h
      · split
        · exact clean_zero h
        · exact clean_zero h
        · split
          · exact clean_zero h
          · split <;> exact clean_zero h

theorem wrapRest_clean {E : Env} {x : Faults} {priv : Bytes} {aux : Option Bytes} {epk rpk : Bytes} {time : Int} {extra : List Bytes} {text ct : Bytes}
    (hb : E.build ≠ .plain) (h : priv.length = 32) :
    (wrapRest E x priv aux epk rpk time extra text ct).locals = [zeros 32] := by
  unfold wrapRest
  simp only [gone h]
  split
  · rfl
  split
  · next hu => exact absurd hu (Own.Defined.addTag_defined _ _ _)
  · rfl
  split
  · next hu => exact absurd hu (Own.Defined.pairTags_defined _ _ _)
  · rfl
  split
  · next hu => exact absurd hu (Own.Defined.computeId_defined _ _ _ fun h => absurd h hb)
  · rfl
  · rfl

theorem createWrap_clean {E : Env} {x : Faults} {priv : Bytes} {D : Draw} {eph : Res (Bytes × Bytes)} {sl : Event} {rpk : Bytes} (h : priv.length = 32) (hc : Nip44.Spec.CfgOK E.cfg)
    (hu : eph ≠ .ub) (he : ∀ k, eph = .ok k → k.1.length = 32) :
    Clean [] [priv] (createWrap E x priv D eph sl rpk).locals := by
  unfold createWrap
  split
  · exact absurd rfl hu
  · exact clean_same
  next esk epk =>
  have hs : esk.length = 32 := he _ rfl
  have e : over 0 esk priv = esk := over_all (by omega)
  simp only [e, gone hs]
  split
  · next hj => exact absurd hj (Own.Defined.toJson_defined _ _)
  · exact clean_zero h
  next text hj =>
  split
  · next hn => exact absurd hn (Own.Defined.encrypt_defined _ _ hc _ _ _ _)
  · exact clean_zero h
  split
  · exact clean_zero h
  split
  · next hn => exact absurd hn (Own.Defined.pastTwoDays_defined _ _)
  · exact clean_zero h
  rw [wrapRest_clean (Own.Defined.toJson_ok hj) hs]
  exact clean_zero h

theorem createWrap59_clean {E : Env} {x : Faults} {priv : Bytes} {D : Draw} {eph : Res (Bytes × Bytes)} {sl : Event} {rpk : Bytes} {extra : List Bytes}
    (h : priv.length = 32) (hc : Nip44.Spec.CfgOK E.cfg)
    (hu : eph ≠ .ub) (he : ∀ k, eph = .ok k → k.1.length = 32) :
    Clean [] [priv] (createWrap59 E x priv D eph sl rpk extra).locals := by
  unfold createWrap59
  split
  · exact absurd rfl hu
  · exact clean_same
  next esk epk =>
  have hs : esk.length = 32 := he _ rfl
  have e : over 0 esk priv = esk := over_all (by omega)
  simp only [e, gone hs]
  split
  · next hj => exact absurd hj (Own.Defined.toJson_defined _ _)
  · exact clean_zero h
  next text hj =>
  split
  · next hn => exact absurd hn (Own.Defined.encrypt_defined _ _ hc _ _ _ _)
  · exact clean_zero h
  split
  · exact clean_zero h
  rw [wrapRest_clean (Own.Defined.toJson_ok hj) hs]
  exact clean_zero h

/-! ## C165 -/

/-- C165, keys: making a seal or a gift wrap. Whichever step fails, the copy of the sender's private key and the one-time key of the
wrap are wiped; or the buffer was never written. -/
theorem C165_layers {E : Env} {x : Faults} {secret priv : Bytes} {D : Draw} {eph : Res (Bytes × Bytes)} {rumor sl : Event} {sk rpk : Bytes}
    {extra : List Bytes} (h : secret.length = 32) (h' : priv.length = 32) (hs : sk.length = 32) (hc : Nip44.Spec.CfgOK E.cfg) (hu : eph ≠ .ub)
    (he : ∀ k, eph = .ok k → k.1.length = 32) :
    Clean [] [secret] (createSeal E x secret D rumor sk rpk).locals ∧ Clean [] [secret] (createSeal59 E x secret D rumor sk rpk).locals ∧
      Clean [] [priv] (createWrap E x priv D eph sl rpk).locals ∧
      Clean [] [priv] (createWrap59 E x priv D eph sl rpk extra).locals :=
  ⟨createSeal_clean h hs, createSeal59_clean h hs, createWrap_clean h' hc hu he,
    createWrap59_clean h' hc hu he⟩

/-- C165, keys: sending a direct message and wrapping an event. -/
theorem C165_keys {E : Env} {x1 x2 : Faults} {secret secret' priv : Bytes} {D1 D2 : Draw} {eph : Res (Bytes × Bytes)} {event : Event}
    {content sk rpk : Bytes} {subject replyTo : Option Bytes} {createdAt : Int} (h1 : secret.length = 32) (h2 : secret'.length = 32)
    (h3 : priv.length = 32) (hs : sk.length = 32) (hc : Nip44.Spec.CfgOK E.cfg) (hu : eph ≠ .ub)
    (he : ∀ k, eph = .ok k → k.1.length = 32) :
    Clean [] [secret, secret', priv] (sendDm E x1 x2 secret secret' priv D1 D2 eph content sk rpk subject replyTo createdAt).locals ∧
    Clean [] [secret, priv] (wrapEvent E x1 x2 secret priv D1 D2 eph event sk rpk).locals := by
  have e : over 0 sk secret = sk := over_all (by omega)
  constructor
  · unfold sendDm
    simp only [e, gone hs]
    have two : ∀ {l : List Bytes}, Clean [] [secret', priv] l → Clean [] [secret, secret', priv] (zeros 32 :: l) := fun hc =>
      Clean.append (b := [secret]) (l := [zeros 32]) (clean_zero h1) hc
    split
    · exact two (Clean.refl _)
    split
    · exact two (Clean.refl _)
    · exact two (Clean.refl _)
    split
    · exact two (Clean.append (createSeal_clean h2 hs) clean_same)
    · exact two (Clean.append (createSeal_clean h2 hs) clean_same)
    exact two (Clean.append (createSeal_clean h2 hs) (createWrap_clean h3 hc hu he))
  · unfold wrapEvent
    simp only
    split
    · exact Clean.append (wrapSeal_clean h1 hs) clean_same
    · exact Clean.append (wrapSeal_clean h1 hs) clean_same
    exact Clean.append (wrapSeal_clean h1 hs) (createWrap59_clean h3 hc hu he)

theorem layer_left {E : Env} {sk pk : Bytes} {content : Option Bytes} : ∀ b ∈ (openLayer E sk pk content).left, ∃ n, b = zeros n := by
  intro b hb
  unfold openLayer at hb
  split at hb
  · simp at hb
  split at hb
  · simp at hb
  · simp at hb
  next m _ =>
  simp only [List.mem_singleton] at hb
  refine ⟨m.length + 1, ?_⟩
  rw [hb, wipe, over, List.length_replicate, Nat.zero_add, List.take_zero, List.nil_append, List.drop_left, ← List.replicate_succ']

theorem openSeal_left {E : Env} {wrap : Event} {sk : Bytes} : ∀ b ∈ (openSeal E wrap sk).left, ∃ n, b = zeros n := by
  intro b hb
  unfold openSeal at hb
  split at hb
  · simp at hb
  simp only at hb
  split at hb
  · exact layer_left b hb
  · exact layer_left b hb
  split at hb
  · exact layer_left b hb
  split at hb <;> exact layer_left b hb

/-- C165, opening: the deciphered texts, which the library's decryption hands out, are wiped before they are released. (What the
decryption itself leaves is the subject of C164.) The outcome is that of the value models. -/
theorem C165_unwrap {E : Env} {wrap : Event} {sk : Bytes} (check : Bool) :
    (∀ b ∈ (unwrap check E wrap sk).left, ∃ n, b = zeros n) ∧
      (unwrap true E wrap sk).view = (Nostr.Gift.unwrapDm E wrap sk).result ∧
      (unwrap false E wrap sk).view = (Nostr.Gift.unwrapEvent E wrap sk).result := by
  have hcs : ∀ m : Bytes, Json.cstr (m ++ [0]) = Json.cstr m := by
    intro m
    simp only [Json.cstr]
    induction m with
    | nil => rfl
    | cons c m ih => simp only [List.cons_append, List.takeWhile_cons, ih]
  have hl : ∀ pk content, (openLayer E sk pk content).view = Nostr.Gift.open_ E sk pk content := by
    intro pk content
    unfold openLayer Nostr.Gift.open_
    cases content with
    | none => rfl
    | some t =>
      cases hd : Nip44.decrypt E.nc E.b64 E.cfg sk pk t with
      | ub => simp [hd]
      | err e => simp [hd]
      | ok m => simp [hd, hcs]
  have ho : (openSeal E wrap sk).view = Nostr.Gift.openSeal E wrap sk := by
    unfold openSeal Nostr.Gift.openSeal
    split
    · rfl
    simp only [hl]
    cases Nostr.Gift.open_ E sk wrap.pubkey wrap.content with
    | ub => rfl
    | err e => rfl
    | ok sl =>
      simp only [Res.bind_ok]
      split
      · rfl
      cases verify E.crypto E.build sl <;> rfl
  refine ⟨?_, ?_, ?_⟩
  · intro b hb
    unfold unwrap at hb
    simp only at hb
    split at hb
    · exact openSeal_left b hb
    · exact openSeal_left b hb
    have fin : ∀ {pk content}, b ∈ (openSeal E wrap sk).left ++ (openLayer E sk pk content).left → ∃ n, b = zeros n := fun h =>
      (List.mem_append.1 h).elim (openSeal_left b) (layer_left b)
    split at hb
    · exact fin hb
    · exact fin hb
    split at hb <;> exact fin hb
  · unfold unwrap Nostr.Gift.unwrapDm
    simp only [ho, hl]
    cases Nostr.Gift.openSeal E wrap sk with
    | ub => rfl
    | err e => rfl
    | ok sl =>
      simp only
      cases Nostr.Gift.open_ E sk sl.pubkey sl.content with
      | ub => rfl
      | err e => rfl
      | ok rumor =>
        simp only [Res.bind_ok, true_and]
        split <;> rfl
  · unfold unwrap Nostr.Gift.unwrapEvent
    simp only [ho, hl]
    cases Nostr.Gift.openSeal E wrap sk with
    | ub => rfl
    | err e => rfl
    | ok sl =>
      simp only
      cases Nostr.Gift.open_ E sk sl.pubkey sl.content with
      | ub => rfl
      | err e => rfl
      | ok rumor => simp

/-- The outcome of the other functions without faults is that of the value models. -/
theorem C165_values {E : Env} {secret secret' priv : Bytes} {D D1 D2 : Draw} {eph : Res (Bytes × Bytes)} {rumor sl event : Event}
    {content sk rpk : Bytes} {subject replyTo : Option Bytes} {createdAt : Int} {extra : List Bytes} (h1 : secret.length = 32) (h2 : secret'.length = 32)
    (h3 : priv.length = 32) (hs : sk.length = 32) (he : ∀ k, eph = .ok k → k.1.length = 32) :
    (createSeal E {} secret D rumor sk rpk).view = Nostr.Gift.createSeal E D rumor sk rpk ∧
    (createSeal59 E {} secret D rumor sk rpk).view = Nostr.Gift.createSeal59 E D rumor sk rpk ∧
    (createWrap E {} priv D eph sl rpk).view = Nostr.Gift.createWrap E D eph sl rpk ∧
    (createWrap59 E {} priv D eph sl rpk extra).view = Nostr.Gift.createWrap59 E D eph sl rpk extra ∧
    (sendDm E {} {} secret secret' priv D1 D2 eph content sk rpk subject replyTo createdAt).view =
      Nostr.Gift.sendDm E D1 D2 eph content sk rpk subject replyTo createdAt ∧
    ∀ e, (wrapEvent E {} {} secret priv D1 D2 eph event sk rpk).view = .ok e ↔ Nostr.Gift.wrapEvent E D1 D2 eph event sk rpk = .ok e := by
  have t32 : ∀ {b : Bytes}, b.length = 32 → b.take 32 = b := fun h => by rw [← h, List.take_length]
  have rest : ∀ {secret : Bytes} {D : Draw} {time : Int} {text ct : Bytes}, secret.length = 32 →
      (sealRest E {} secret D.aux sk time text ct).view = Nostr.Gift.sealOf E D.aux sk time ct := by
    intro secret D time text ct h
    have e : over 0 sk secret = sk := over_all (by omega)
    unfold sealRest Nostr.Gift.sealOf
    simp only [e, t32 hs, Bool.false_eq_true, if_false]
    cases E.crypto.pubOf sk with
    | none => rfl
    | some pk =>
      simp only
      cases computeId E.crypto E.build { zero with kind := 13, createdAt := time, pubkey := pk, content := some ct } <;> rfl
  have seal17 : ∀ {secret : Bytes} {D : Draw} {rumor : Event}, secret.length = 32 →
      (createSeal E {} secret D rumor sk rpk).view = Nostr.Gift.createSeal E D rumor sk rpk := by
    intro secret D rumor h
    unfold createSeal Nostr.Gift.createSeal
    cases toJson E.build rumor with
    | ub => rfl
    | err e => rfl
    | ok text =>
      simp only [Res.bind_ok]
      cases Nip44.encrypt E.nc E.b64 E.cfg D.nonce sk rpk text with
      | ub => rfl
      | err e => rfl
      | ok ct =>
        simp only [Res.bind_ok, Bool.false_eq_true, if_false]
        cases Nostr.Gift.pastTwoDays D.now D.offset with
        | ub => rfl
        | err e => rfl
        | ok time => exact rest h
  have seal59 : ∀ {secret : Bytes} {D : Draw} {rumor : Event}, secret.length = 32 →
      (createSeal59 E {} secret D rumor sk rpk).view = Nostr.Gift.createSeal59 E D rumor sk rpk := by
    intro secret D rumor h
    unfold createSeal59 Nostr.Gift.createSeal59
    cases toJson E.build rumor with
    | ub => rfl
    | err e => rfl
    | ok text =>
      simp only [Res.bind_ok]
      cases Nip44.encrypt E.nc E.b64 E.cfg D.nonce sk rpk text with
      | ub => rfl
      | err e => rfl
      | ok ct =>
        simp only [Res.bind_ok, Bool.false_eq_true, if_false]
        exact rest h
  have wr : ∀ {D : Draw} {esk epk : Bytes} {time : Int} {extra : List Bytes} {text ct : Bytes}, esk.length = 32 →
      (wrapRest E {} esk D.aux epk rpk time extra text ct).view = Nostr.Gift.wrapOf E D.aux esk epk rpk time extra ct := by
    intro D esk epk time extra text ct h
    unfold wrapRest Nostr.Gift.wrapOf
    simp only [t32 h, Bool.false_eq_true, if_false]
    cases addTag E.cfg { zero with kind := 1059, createdAt := time, pubkey := epk, content := some ct } [c!"p", Hex.hexEncode rpk] with
    | ub => rfl
    | err e => rfl
    | ok e1 =>
      simp only [Res.bind_ok]
      cases Nostr.Gift.pairTags E.cfg e1 extra with
      | ub => rfl
      | err e => rfl
      | ok e2 =>
        simp only [Res.bind_ok]
        cases computeId E.crypto E.build e2 <;> rfl
  have wrap17 : ∀ {D : Draw} {sl : Event}, (createWrap E {} priv D eph sl rpk).view = Nostr.Gift.createWrap E D eph sl rpk := by
    intro D sl
    unfold createWrap Nostr.Gift.createWrap
    cases hk : eph with
    | ub => rfl
    | err e => rfl
    | ok k =>
      obtain ⟨esk, epk⟩ := k
      have hl : esk.length = 32 := he _ hk
      have e : over 0 esk priv = esk := over_all (by omega)
      simp only [Res.bind_ok, e, t32 hl]
      cases toJson E.build sl with
      | ub => rfl
      | err e => rfl
      | ok text =>
        simp only [Res.bind_ok]
        cases Nip44.encrypt E.nc E.b64 E.cfg D.nonce esk rpk text with
        | ub => rfl
        | err e => rfl
        | ok ct =>
          simp only [Res.bind_ok, Bool.false_eq_true, if_false]
          cases Nostr.Gift.pastTwoDays D.now D.offset with
          | ub => rfl
          | err e => rfl
          | ok time => exact wr hl
  have wrap59 : ∀ {D : Draw} {sl : Event} {extra : List Bytes},
      (createWrap59 E {} priv D eph sl rpk extra).view = Nostr.Gift.createWrap59 E D eph sl rpk extra := by
    intro D sl extra
    unfold createWrap59 Nostr.Gift.createWrap59
    cases hk : eph with
    | ub => rfl
    | err e => rfl
    | ok k =>
      obtain ⟨esk, epk⟩ := k
      have hl : esk.length = 32 := he _ hk
      have e : over 0 esk priv = esk := over_all (by omega)
      simp only [Res.bind_ok, e, t32 hl]
      cases toJson E.build sl with
      | ub => rfl
      | err e => rfl
      | ok text =>
        simp only [Res.bind_ok]
        cases Nip44.encrypt E.nc E.b64 E.cfg D.nonce esk rpk text with
        | ub => rfl
        | err e => rfl
        | ok ct =>
          simp only [Res.bind_ok, Bool.false_eq_true, if_false]
          exact wr hl
  refine ⟨seal17 h1, seal59 h1, wrap17, wrap59, ?_, ?_⟩
  · have e : over 0 sk secret = sk := over_all (by omega)
    unfold sendDm Nostr.Gift.sendDm Nostr.Gift.dmRumor
    simp only [e, t32 hs]
    cases E.crypto.pubOf sk with
    | none => rfl
    | some pk =>
      simp only
      cases Nostr.Gift.createRumor E D1.now 14 pk content createdAt >>= fun rumor =>
          Nostr.Gift.addAll E.cfg rumor (Nostr.Gift.dmTags rpk subject replyTo) with
      | ub => rfl
      | err e => rfl
      | ok rumor =>
        simp only [Res.bind_ok, seal17 h2]
        cases Nostr.Gift.createSeal E D1 rumor sk rpk with
        | ub => rfl
        | err e => rfl
        | ok sl => exact wrap17
  · intro ev
    have e : over 0 sk secret = sk := over_all (by omega)
    unfold wrapEvent Nostr.Gift.wrapEvent Nostr.Gift.createSeal59 wrapSeal Nostr.Gift.sealOf
    simp only [e, t32 hs, Bool.false_eq_true, if_false]
    cases toJson E.build event with
    | ub => simp
    | err e => simp
    | ok text =>
      simp only [Res.bind_ok]
      cases hp : E.crypto.pubOf sk with
      | none =>
        cases Nip44.encrypt E.nc E.b64 E.cfg D1.nonce sk rpk text <;> simp
      | some pk =>
        simp only
        cases Nip44.encrypt E.nc E.b64 E.cfg D1.nonce sk rpk text with
        | ub => simp
        | err e => simp
        | ok ct =>
          simp only [Res.bind_ok]
          cases computeId E.crypto E.build
              { zero with kind := 13, createdAt := Nostr.Gift.randomize D1.now D1.offset, pubkey := pk, content := some ct } with
          | ub => simp
          | err e => simp
          | ok e1 =>
            simp only [Res.bind_ok]
            cases sign E.crypto E.build D1.aux sk e1 with
            | ub => simp
            | err e => simp
            | ok sl => simp only [Res.bind_ok, wrap59]

/-- C165 fails for the message: after every seal that succeeds, the JSON text of the message lies in memory that was released
(nip17.c:109 and nip59.c:347 release it without wiping it). -/
theorem C165_message_refuted {E : Env} {x : Faults} {secret : Bytes} {D : Draw} {rumor s : Event} {sk rpk : Bytes}
    (hv : (createSeal E x secret D rumor sk rpk).view = .ok s ∨ (createSeal59 E x secret D rumor sk rpk).view = .ok s) :
    ∃ text, toJson E.build rumor = .ok text ∧ text ∈ (createSeal E x secret D rumor sk rpk).freed ∧
      text ∈ (createSeal59 E x secret D rumor sk rpk).freed := by
  have rest : ∀ {D : Draw} {time : Int} {text ct : Bytes}, (sealRest E x secret D.aux sk time text ct).freed = [text] := by
    intro D time text ct
    unfold sealRest
    simp only
    split
    · rfl
    · split
      · rfl
      · split <;> rfl
  cases ht : toJson E.build rumor with
  | ub => simp [createSeal, createSeal59, ht] at hv
  | err e => simp [createSeal, createSeal59, ht] at hv
  | ok text =>
    refine ⟨text, rfl, ?_, ?_⟩
    · simp only [createSeal, ht]
      split
      · simp
      · simp
      split
      · simp
      split
      · simp
      · simp
      · rw [rest]; simp
    · simp only [createSeal59, ht]
      split
      · simp
      · simp
      split
      · simp
      · rw [rest]; simp

/-- The same for a whole call: after every direct message that was sent and every event that was wrapped, its JSON text lies in released
memory. -/
theorem C165_sent_refuted {E : Env} {x1 x2 : Faults} {secret secret' priv : Bytes} {D1 D2 : Draw} {eph : Res (Bytes × Bytes)} {event w : Event}
    {content sk rpk : Bytes} {subject replyTo : Option Bytes} {createdAt : Int} (hl : secret.length = 32) (hs : sk.length = 32) :
    ((sendDm E x1 x2 secret secret' priv D1 D2 eph content sk rpk subject replyTo createdAt).view = .ok w →
      ∃ rumor text, Nostr.Gift.dmRumor E D1.now content sk rpk subject replyTo createdAt = .ok rumor ∧ toJson E.build rumor = .ok text ∧
        text ∈ (sendDm E x1 x2 secret secret' priv D1 D2 eph content sk rpk subject replyTo createdAt).freed) ∧
    ((wrapEvent E x1 x2 secret priv D1 D2 eph event sk rpk).view = .ok w →
      ∃ text, toJson E.build event = .ok text ∧ text ∈ (wrapEvent E x1 x2 secret priv D1 D2 eph event sk rpk).freed) := by
  have e : over 0 sk secret = sk := over_all (by omega)
  have t : sk.take 32 = sk := by rw [← hs, List.take_length]
  constructor
  · intro hv
    unfold sendDm at hv ⊢
    unfold Nostr.Gift.dmRumor
    simp only [e, t] at hv ⊢
    cases hp : E.crypto.pubOf sk with
    | none => simp [hp] at hv
    | some pk =>
      simp only [hp] at hv ⊢
      cases hr : Nostr.Gift.createRumor E D1.now 14 pk content createdAt >>= fun rumor =>
          Nostr.Gift.addAll E.cfg rumor (Nostr.Gift.dmTags rpk subject replyTo) with
      | ub => simp [hr] at hv
      | err e => simp [hr] at hv
      | ok rumor =>
        simp only [hr] at hv ⊢
        cases hc : (createSeal E x1 secret' D1 rumor sk rpk).view with
        | ub => simp [hc] at hv
        | err e => simp [hc] at hv
        | ok sl =>
          obtain ⟨text, h1, h2, _⟩ := C165_message_refuted (.inl hc)
          exact ⟨rumor, text, rfl, h1, by simp [h2]⟩
  · intro hv
    have hf : ∀ sl, (wrapSeal E x1 secret D1 event sk rpk).view = .ok sl →
        ∃ text, toJson E.build event = .ok text ∧ text ∈ (wrapSeal E x1 secret D1 event sk rpk).freed := by
      intro sl h
      cases ht : toJson E.build event with
      | ub => simp [wrapSeal, ht] at h
      | err e => simp [wrapSeal, ht] at h
      | ok text =>
        refine ⟨text, rfl, ?_⟩
        simp only [wrapSeal, ht]
        split
        · simp
        split
        · simp
        split
        · simp
        · simp
        split
        · simp
        split <;> simp
    unfold wrapEvent at hv ⊢
    cases hc : (wrapSeal E x1 secret D1 event sk rpk).view with
    | ub => simp [hc] at hv
    | err e => simp [hc] at hv
    | ok sl =>
      obtain ⟨text, h1, h2⟩ := hf sl hc
      exact ⟨text, h1, by simp [hc, h2]⟩

/-! ## Cases -/

open Nostr.Gift.Props (toy draw)

/-- A message that is sent, with other bytes in the buffers before: the keys are gone, the text of the message is not. -/
example :
    let r := sendDm toy {} {} (List.replicate 32 7) (List.replicate 32 8) (List.replicate 32 9) draw draw
      (.ok (List.replicate 32 2, List.replicate 32 2)) (c!"hi") (List.replicate 32 1) (List.replicate 32 3) none none 0;
    r.view.isOk = true ∧ r.locals = [zeros 32, zeros 32, zeros 32] ∧ r.freed.length = 2 := by
  decide +kernel

/-- The same with a failing allocation in the second layer: no key is left either. -/
example :
    let r := sendDm toy {} { create := true } (List.replicate 32 7) (List.replicate 32 8) (List.replicate 32 9) draw draw
      (.ok (List.replicate 32 2, List.replicate 32 2)) (c!"hi") (List.replicate 32 1) (List.replicate 32 3) none none 0;
    r.view = .err .memory ∧ r.locals = [zeros 32, zeros 32, zeros 32] := by
  decide +kernel

/-- An event that is wrapped and unwrapped: two deciphered texts were wiped. -/
example :
    (match (wrapEvent toy {} {} (List.replicate 32 7) (List.replicate 32 9) draw draw (.ok (List.replicate 32 2, List.replicate 32 2))
        Event.Props.note (List.replicate 32 1) (List.replicate 32 3)).view with
      | .ok w => let r := unwrap false toy w (List.replicate 32 3); r.view.isOk && decide (r.left.length = 2 ∧ ∀ b ∈ r.left, ∀ c ∈ b, c = 0)
      | _ => false) = true := by
  decide +kernel

end Nostr.Wipe.Gift.Props
