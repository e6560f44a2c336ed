import Verif.Long.Model
import Verif.Long.Spec
import Verif.Config.Spec
import Verif.Zap.Props
import Verif.Hd.Path
import Verif.Hd.Props

/-!
# C206: the same call means the same where `long` is narrower

`wide` is the width the other models take; `C206_wide` shows that the definitions with that width are the other models.
-/

namespace Nostr.Long.Props
open Nostr Nostr.Event Nostr.Long Nostr.Long.Spec Nostr.Zap.Spec

/-! ## Width 64 is the other models -/

theorem strtoul_wide (s : Bytes) : strtoul wide s = Num.strtoul s := rfl

theorem strtol_wide (s : Bytes) : strtol wide s = Num.strtol s := rfl

theorem request_mod (w : Nat) (cfg : Option Config.Config) (now : Int) (amount : Nat) (recipient : Bytes) (lnurl content : Option Bytes)
    (relays : List Bytes) : createRequest w cfg now amount recipient lnurl content relays =
      Zap.createRequest cfg now (amount % 2 ^ w) recipient lnurl content relays := rfl

theorem amountOf_wide (t : Bytes) : amountOf wide t = .ok (Zap.amountOf t) := by
  unfold amountOf Zap.amountOf
  cases Zap.strstr (c!"lnbc") t with
  | none => rfl
  | some s =>
    simp only []
    by_cases h : (Num.strtoul (s.drop 4)).2.length < (s.drop 4).length
    · rw [if_pos (show (strtoul wide (s.drop 4)).2.length < (s.drop 4).length from h), if_pos h, strtoul_wide]
      unfold scaled
      have hlt : (Num.strtoul (s.drop 4)).1 < 2 ^ 64 := by
        unfold Num.strtoul
        split
        · exact (by decide : (0 : Nat) < 2 ^ 64)
        · split
          · exact (by decide : (2 ^ 64 - 1 : Nat) < 2 ^ 64)
          · split
            · exact Nat.mod_lt _ (by decide)
            · show _ < _
              omega
      generalize (Num.strtoul (s.drop 4)).1 = a at hlt ⊢
      generalize Zap.lower ((Num.strtoul (s.drop 4)).2.headD 0) = m
      by_cases h1 : m = 0x6d
      · rw [if_pos h1, if_pos h1]; rfl
      rw [if_neg h1, if_neg h1]
      by_cases h2 : m = 0x75
      · rw [if_pos h2, if_pos h2]; rfl
      rw [if_neg h2, if_neg h2]
      by_cases h3 : m = 0x6e
      · rw [if_pos h3, if_pos h3]; rfl
      rw [if_neg h3, if_neg h3]
      by_cases h4 : m = 0x70
      · rw [if_pos h4, if_pos h4, Nat.mod_eq_of_lt (by omega)]; rfl
      rw [if_neg h4, if_neg h4, if_pos (by decide)]; rfl
    · rw [if_neg (show ¬ (strtoul wide (s.drop 4)).2.length < (s.drop 4).length from h), if_neg h]

theorem parse_wide (P : Plat) (b : Build) (cfg : Option Config.Config) (e : Event) :
    parseReceipt wide P b cfg e = Zap.parseReceipt P b cfg e := by
  unfold parseReceipt Zap.parseReceipt
  split
  · rfl
  · congr 1
    funext r
    unfold receiptAmount
    cases r.bolt11 with
    | none => rfl
    | some t => simp only [amountOf_wide]; rfl

theorem verify_wide (C : Crypto) (P : Plat) (b : Build) (cfg : Option Config.Config) (receipt request : Event) (server : Bytes) :
    verifyZap wide C P b cfg receipt request server = Zap.verifyZap C P b cfg receipt request server := by
  unfold verifyZap Zap.verifyZap
  simp only [parse_wide]
  rfl

theorem parseU32_wide (env : Config.Env) (name : Bytes) (d : Nat) : parseU32 wide env name d = Config.parseU32 env name d := by
  unfold parseU32 Config.parseU32
  cases env name <;> rfl

theorem parseI32_wide (env : Config.Env) (name : Bytes) (d : Int) : parseI32 wide env name d = Config.parseI32 env name d := by
  unfold parseI32 Config.parseI32
  cases env name <;> rfl

theorem loadEnv_wide (env : Config.Env) (c : Config.Config) : loadEnv wide env c = Config.loadEnv env c := by
  unfold loadEnv Config.loadEnv
  simp only [parseU32_wide, parseI32_wide]

theorem pathLoop_wide (C : Hd.Crypto) : ∀ (ts : List Bytes) (k : Hd.HdKey), pathLoop wide C ts k = Hd.pathLoop C ts k
  | [], _ => rfl
  | t :: ts, k => by
    simp only [pathLoop, Hd.pathLoop]
    have h : component wide t = Hd.component t := rfl
    rw [h]
    cases Hd.component t with
    | none => rfl
    | some i =>
      simp only []
      congr 1
      funext n
      exact pathLoop_wide C ts n

theorem path_wide (C : Hd.Crypto) (k : Hd.HdKey) (p : Bytes) : derivePath wide C k p = Hd.derivePath C k p := by
  unfold derivePath Hd.derivePath
  split
  · rfl
  · exact pathLoop_wide C _ _
  · rename_i h1 h2
    split
    · exact absurd rfl (h1 ·)
    · rename_i r
      exact absurd rfl (h2 r)
    · rfl

theorem clause_wide (p : Bytes) (c : Nip26.Cond) : clause wide p c = Nip26.clause p c := by
  unfold clause
  by_cases h : p.take 5 = c!"kind="
  · rw [if_pos h]
    unfold Nip26.clause
    rw [if_pos h]
    rfl
  · rw [if_neg h]

theorem loop_wide : ∀ (f : Nat) (s : Bytes) (c : Nip26.Cond) (n : Nat), loop wide f s c n = Nip26.loop f s c n
  | 0, [], _, _ => rfl
  | _ + 1, [], _, _ => rfl
  | 0, _ :: _, _, _ => rfl
  | f + 1, b :: s, c, n => by
    simp only [loop, Nip26.loop, clause_wide]
    cases (b :: s).dropWhile (· == 0x26) with
    | nil => rfl
    | cons d p =>
      simp only []
      cases Nip26.clause (d :: p) c with
      | none => rfl
      | some x => exact loop_wide f _ _ _

theorem conditions_wide (s : Bytes) : parseConditions wide s = Nip26.parseConditions s := by
  unfold parseConditions Nip26.parseConditions
  rw [loop_wide]
  rfl

theorem repostTag_wide (f : Nip18.Found) (t : List Bytes) : repostTag wide f t = Nip18.scanTag f t := by
  unfold repostTag
  split
  · rename_i name value rest
    by_cases h : name = c!"k"
    · rw [if_pos h, h]
      rfl
    · rw [if_neg h]
  · rename_i h
    unfold Nip18.scanTag
    split
    · rename_i a b c
      exact absurd rfl (h a b c)
    · rfl

theorem repost_wide (e : Event) (a b c : Nat) : repostParse wide e a b c = Nip18.repostParse e a b c := by
  unfold repostParse Nip18.repostParse
  rw [show repostTag wide = Nip18.scanTag from funext fun f => funext fun t => repostTag_wide f t]

theorem reactionTag_wide (f : Nip25.Found) (t : List Bytes) : reactionTag wide f t = Nip25.scanTag f t := by
  unfold reactionTag
  split
  · rename_i name value rest
    by_cases h : name = c!"k"
    · rw [if_pos h, h]
      rfl
    · rw [if_neg h]
  · rename_i h
    unfold Nip25.scanTag
    split
    · rename_i a b c
      exact absurd rfl (h a b c)
    · rfl

theorem reaction_wide (e : Event) (a b c : Nat) : reactionParse wide e a b c = Nip25.parse e a b c := by
  unfold reactionParse Nip25.parse
  rw [show reactionTag wide = Nip25.scanTag from funext fun f => funext fun t => reactionTag_wide f t]

/-- The definitions of this area with a `long` of 64 bits are the ones the other properties are about. -/
theorem C206_wide :
    (∀ cfg now amount recipient lnurl content relays, amount < 2 ^ 64 →
      createRequest wide cfg now amount recipient lnurl content relays = Zap.createRequest cfg now amount recipient lnurl content relays) ∧
    (∀ P b cfg e, parseReceipt wide P b cfg e = Zap.parseReceipt P b cfg e) ∧
    (∀ C P b cfg receipt request server,
      verifyZap wide C P b cfg receipt request server = Zap.verifyZap C P b cfg receipt request server) ∧
    (∀ env c, loadEnv wide env c = Config.loadEnv env c) ∧
    (∀ C k p, derivePath wide C k p = Hd.derivePath C k p) ∧
    (∀ s, parseConditions wide s = Nip26.parseConditions s) ∧
    (∀ e a b c, repostParse wide e a b c = Nip18.repostParse e a b c) ∧
    (∀ e a b c, reactionParse wide e a b c = Nip25.parse e a b c) ∧
    (∀ td fr amount pubkey preimage tlv, payKeysend wide td fr amount pubkey preimage tlv = Nip47.payKeysend td fr amount pubkey preimage tlv) ∧
    (∀ f u l o p t, listTxPlain wide 64 f u l o p t = Nip47.listTxPlain f u l o p t) := by
  refine ⟨?_, parse_wide, verify_wide, loadEnv_wide, path_wide, conditions_wide, repost_wide, reaction_wide, fun _ _ _ _ _ _ => rfl, ?_⟩
  · intro cfg now amount recipient lnurl content relays h
    rw [request_mod, show amount % 2 ^ wide = amount from Nat.mod_eq_of_lt h]
  · intro f u l o p t
    unfold listTxPlain
    rw [if_neg (by intro h; exact h.1 rfl)]


/-! ## Reading numbers -/

theorem strtoul_within {t : Bytes} (h : Within 0 (2 ^ 32 - 1) t) : strtoul narrow t = strtoul wide t := by
  suffices ∀ w v, w = 32 → v = 64 → strtoul w t = strtoul v t from this _ _ rfl rfl
  intro w v hw hv
  subst hw hv
  unfold strtoul
  cases hs : Num.scanDec t with
  | none => rfl
  | some x =>
    obtain ⟨neg, m, rest⟩ := x
    obtain ⟨h1, h2⟩ := h neg m rest hs
    simp only []
    cases neg with
    | false =>
      simp only [Bool.false_eq_true, if_false] at h1 h2 ⊢
      rw [if_neg (by omega), if_neg (by omega)]
    | true =>
      simp only [if_true] at h1 h2 ⊢
      have : m = 0 := by omega
      subst this
      rfl

theorem strtol_within {t : Bytes} (h : Within (-2 ^ 31) (2 ^ 31 - 1) t) : strtol narrow t = strtol wide t := by
  suffices ∀ w v, w = 32 → v = 64 → strtol w t = strtol v t from this _ _ rfl rfl
  intro w v hw hv
  subst hw hv
  unfold strtol
  cases hs : Num.scanDec t with
  | none => rfl
  | some x =>
    obtain ⟨neg, m, rest⟩ := x
    obtain ⟨h1, h2⟩ := h neg m rest hs
    simp only []
    generalize (if neg = true then -(m : Int) else (m : Int)) = v at h1 h2 ⊢
    rw [if_neg (by omega), if_neg (by omega), if_neg (by omega), if_neg (by omega)]

theorem within_none {t : Bytes} {lo hi : Int} (h : Num.scanDec t = none) : Within lo hi t := by
  intro _ _ _ hs
  rw [h] at hs
  cases hs

theorem within_dec {lo hi : Int} {n : Nat} {rest : Bytes} (hr : ∀ c, rest.head? = some c → Num.isDigit c = false)
    (h1 : lo ≤ n) (h2 : (n : Int) ≤ hi) : Within lo hi (Num.decNat n ++ rest) := by
  intro neg m r hs
  rw [Num.scanDec_decNat hr] at hs
  simp only [Option.some.injEq, Prod.mk.injEq] at hs
  obtain ⟨rfl, rfl, rfl⟩ := hs
  exact ⟨h1, h2⟩

/-! ## Zap requests -/

/-- **C206** for `nostr_zap_create_request`: an amount below 2^32 millisatoshi is asked for in the same words. -/
theorem C206_request_partial (cfg : Option Config.Config) (now : Int) (amount : Nat) (recipient : Bytes) (lnurl content : Option Bytes)
    (relays : List Bytes) (h : amount < 2 ^ 32) : createRequest narrow cfg now amount recipient lnurl content relays =
      createRequest wide cfg now amount recipient lnurl content relays := by
  rw [request_mod, request_mod, show amount % 2 ^ narrow = amount from Nat.mod_eq_of_lt h,
    show amount % 2 ^ wide = amount from Nat.mod_eq_of_lt (show amount < 2 ^ 64 by omega)]

/-- C206 fails for every larger amount: the request asks for the amount modulo 2^32, less than 4 294 968 satoshi. -/
theorem C206_request_refuted (cfg : Option Config.Config) (now : Int) (amount : Nat) (recipient : Bytes) (lnurl content : Option Bytes)
    (relays : List Bytes) (h1 : 2 ^ 32 ≤ amount) (h2 : amount < 2 ^ 64) (e e' : Event)
    (he : createRequest narrow cfg now amount recipient lnurl content relays = .ok e)
    (he' : createRequest wide cfg now amount recipient lnurl content relays = .ok e') :
    FirstTag e (c!"amount") (Num.decNat (amount % 2 ^ 32)) ∧ FirstTag e' (c!"amount") (Num.decNat amount) ∧ amount % 2 ^ 32 < amount ∧
      e ≠ e' := by
  rw [request_mod] at he he'
  rw [show amount % 2 ^ wide = amount from Nat.mod_eq_of_lt h2] at he'
  obtain ⟨_, _, _, _, t, _, f, _⟩ := Zap.Props.C114_request_partial _ _ _ _ _ _ _ _ he
  obtain ⟨_, _, _, _, t', _, f', _⟩ := Zap.Props.C114_request_partial _ _ _ _ _ _ _ _ he'
  have hlt : amount % 2 ^ 32 < amount := Nat.lt_of_lt_of_le (Nat.mod_lt _ (by decide)) h1
  refine ⟨f, f', hlt, ?_⟩
  intro h
  subst h
  rw [t] at t'
  simp only [List.cons_append, List.cons.injEq, List.nil_append, true_and, and_true] at t'
  have := Num.decNat_inj t'
  have h3 : amount % 2 ^ narrow = amount % 2 ^ 32 := rfl
  omega

/-- Five million satoshi are asked for as 705 032 satoshi and 704 millisatoshi. -/
example : ∃ e e', createRequest narrow none 5 5000000000 (List.replicate 32 7) none none [c!"wss://a"] = .ok e ∧
    createRequest wide none 5 5000000000 (List.replicate 32 7) none none [c!"wss://a"] = .ok e' ∧
    e.tags.map (·.take 2) = [[c!"relays", c!"wss://a"], [c!"amount", c!"705032704"],
      [c!"p", c!"0707070707070707070707070707070707070707070707070707070707070707"]] ∧
    e'.tags.map (·.take 2) = [[c!"relays", c!"wss://a"], [c!"amount", c!"5000000000"],
      [c!"p", c!"0707070707070707070707070707070707070707070707070707070707070707"]] :=
  ⟨_, _, rfl, rfl, by decide +kernel, by decide +kernel⟩

/-! ## Zap receipts -/

theorem scaled_unit (w n : Nat) (u : Unit') : scaled w n (Zap.lower u.letter) =
    .ok (if u = .pico then n / 10 else n * u.tenths / 10 % 2 ^ w) := by
  have h1 : n * 10 ^ 9 / 10 = n * 100000000 := Nat.mul_div_assoc n (⟨10 ^ 8, by decide⟩ : 10 ∣ 10 ^ 9)
  have h2 : n * 10 ^ 6 / 10 = n * 100000 := Nat.mul_div_assoc n (⟨10 ^ 5, by decide⟩ : 10 ∣ 10 ^ 6)
  have h3 : n * 10 ^ 3 / 10 = n * 100 := Nat.mul_div_assoc n (⟨10 ^ 2, by decide⟩ : 10 ∣ 10 ^ 3)
  cases u
  · rw [if_neg (by decide), Unit'.tenths, h1, scaled, if_pos (by decide)]
  · rw [if_neg (by decide), Unit'.tenths, h2, scaled, if_neg (by decide), if_pos (by decide)]
  · rw [if_neg (by decide), Unit'.tenths, h3, scaled, if_neg (by decide), if_neg (by decide), if_pos (by decide)]
  · rw [if_pos rfl, scaled, if_neg (by decide), if_neg (by decide), if_neg (by decide), if_pos (by decide)]

theorem amountOf_unit (w n : Nat) (u : Unit') (data : Bytes) (hw : n < 2 ^ w) :
    amountOf w (c!"lnbc" ++ Num.decNat n ++ [u.letter] ++ c!"1" ++ data) =
      .ok (some (if u = .pico then n / 10 else n * u.tenths / 10 % 2 ^ w)) := by
  have hr : strtoul w (Num.decNat n ++ ([u.letter] ++ c!"1" ++ data)) = (n, [u.letter] ++ c!"1" ++ data) := by
    unfold strtoul
    rw [Num.scanDec_decNat (by
      intro c hc
      cases u <;> simp [Unit'.letter] at hc <;> subst hc <;> decide)]
    simp only [Bool.false_eq_true, if_false]
    rw [if_neg (by omega)]
  have hs : c!"lnbc" ++ Num.decNat n ++ [u.letter] ++ c!"1" ++ data = c!"lnbc" ++ (Num.decNat n ++ ([u.letter] ++ c!"1" ++ data)) := by
    simp only [List.append_assoc]
  have hp := Num.decNat_pos n
  unfold amountOf
  rw [hs, Zap.Props.strstr_head _ _ (by decide)]
  have hd : (c!"lnbc" ++ (Num.decNat n ++ ([u.letter] ++ c!"1" ++ data))).drop 4 = Num.decNat n ++ ([u.letter] ++ c!"1" ++ data) :=
    List.drop_left' rfl
  simp only [hd, hr]
  rw [if_pos (by simp only [List.length_append]; omega)]
  have : ([u.letter] ++ c!"1" ++ data).headD 0 = u.letter := rfl
  rw [this, scaled_unit w n u]
  rfl

theorem last_invoice {P : Plat} {b : Build} {cfg : Option Config.Config} {e : Event} {v : Bytes} {r : Zap.Receipt}
    (ht : LastTag e (c!"bolt11") v) (h : Zap.scanTags P b cfg e.tags ⟨none, none, none⟩ = .ok r) : r.bolt11 = some v := by
  obtain ⟨before, rest, after, t1, t2⟩ := ht
  rcases (Zap.Props.scan_spec P b cfg _ _ _ h).1 with ⟨_, h2⟩ | ⟨before', v', rest', after', g1, g2, g3⟩
  · exact absurd rfl (h2 (c!"bolt11" :: v :: rest) (by rw [t1]; simp) v rest)
  · have := Zap.Props.lastTag_unique t1 t2 g1 g3
    subst this
    exact g2

/-- What `nostr_zap_parse_receipt` makes of a receipt depends on the width only through the amount of its last invoice. -/
theorem parse_last {P : Plat} {b : Build} {cfg : Option Config.Config} {e : Event} {v : Bytes} (w : Nat) (ht : LastTag e (c!"bolt11") v) :
    parseReceipt w P b cfg e = (if e.kind ≠ 9735 then .err .invalidParam
      else Zap.scanTags P b cfg e.tags ⟨none, none, none⟩ >>= fun r => amountOf w v >>= fun a => .ok (r, a)) := by
  unfold parseReceipt
  split
  · rfl
  · cases h : Zap.scanTags P b cfg e.tags ⟨none, none, none⟩ with
    | ok r =>
      simp only [Res.bind_ok, receiptAmount, last_invoice ht h]
    | err x => rfl
    | ub => rfl

theorem parse_none {P : Plat} {b : Build} {cfg : Option Config.Config} {e : Event} (w : Nat)
    (ht : ∀ t ∈ e.tags, ∀ x r, t ≠ c!"bolt11" :: x :: r) :
    parseReceipt w P b cfg e = (if e.kind ≠ 9735 then .err .invalidParam
      else Zap.scanTags P b cfg e.tags ⟨none, none, none⟩ >>= fun r => .ok (r, none)) := by
  unfold parseReceipt
  split
  · rfl
  · cases h : Zap.scanTags P b cfg e.tags ⟨none, none, none⟩ with
    | ok r =>
      have hb : r.bolt11 = none := by
        rcases (Zap.Props.scan_spec P b cfg _ _ _ h).1 with ⟨g, _⟩ | ⟨before', v', rest', after', g1, _, _⟩
        · exact g
        · exact absurd rfl (ht (c!"bolt11" :: v' :: rest') (by rw [g1]; simp) v' rest')
      simp only [Res.bind_ok, receiptAmount, hb]
    | err x => rfl
    | ub => rfl

/-- **C206** for `nostr_zap_parse_receipt` and `nostr_zap_verify`: a receipt without invoice, or whose last invoice has a unit,
a number below 2^32 and an amount below 2^32 millisatoshi, is read alike and judged alike. -/
theorem C206_receipt_partial (C : Crypto) (P : Plat) (b : Build) (cfg : Option Config.Config) (e : Event)
    (h : (∀ t ∈ e.tags, ∀ x r, t ≠ c!"bolt11" :: x :: r) ∨ ∃ n u data msat, LastTag e (c!"bolt11")
      (c!"lnbc" ++ Num.decNat n ++ [Unit'.letter u] ++ c!"1" ++ data) ∧ n * u.tenths = msat * 10 ∧ n < 2 ^ 32 ∧ msat < 2 ^ 32) :
    parseReceipt narrow P b cfg e = parseReceipt wide P b cfg e ∧
    ∀ request server, verifyZap narrow C P b cfg e request server = verifyZap wide C P b cfg e request server := by
  have key : parseReceipt narrow P b cfg e = parseReceipt wide P b cfg e := by
    rcases h with h | ⟨n, u, data, msat, ht, hm, hn, hs⟩
    · rw [parse_none _ h, parse_none _ h]
    · rw [parse_last _ ht, parse_last _ ht, amountOf_unit narrow n u data hn,
        amountOf_unit wide n u data (show n < 2 ^ 64 by omega)]
      have : (if u = .pico then n / 10 else n * u.tenths / 10 % 2 ^ narrow) =
          (if u = .pico then n / 10 else n * u.tenths / 10 % 2 ^ wide) := by
        have hd : n * u.tenths / 10 = msat := by rw [hm, Nat.mul_div_cancel _ (by decide)]
        have a : n * u.tenths / 10 % 2 ^ narrow = msat := by rw [hd]; exact Nat.mod_eq_of_lt hs
        have c : n * u.tenths / 10 % 2 ^ wide = msat := by rw [hd]; exact Nat.mod_eq_of_lt (show msat < 2 ^ 64 by omega)
        split
        · rfl
        · exact a.trans c.symm
      rw [this]
  refine ⟨key, fun request server => ?_⟩
  unfold verifyZap
  rw [key]

example : LastTag { zero with kind := 9735, tags := [[c!"bolt11", c!"lnbc20u1pdata"]] } (c!"bolt11")
    (c!"lnbc" ++ Num.decNat 20 ++ [Unit'.letter .micro] ++ c!"1" ++ c!"pdata") ∧ 20 * Unit'.micro.tenths = 2000000 * 10 ∧ 20 < 2 ^ 32 ∧
    2000000 < 2 ^ 32 :=
  ⟨⟨[], [], [], by decide +kernel, by simp⟩, by decide, by decide, by decide⟩

/-- C206 fails for every invoice in milli-, micro- or nanobitcoin over 2^32 millisatoshi or more: the amount read is the amount
modulo 2^32. -/
theorem C206_receipt_refuted (P : Plat) (b : Build) (cfg : Option Config.Config) (e : Event) (n : Nat) (u : Unit') (data : Bytes) (msat : Nat)
    (ht : LastTag e (c!"bolt11") (c!"lnbc" ++ Num.decNat n ++ [u.letter] ++ c!"1" ++ data)) (hu : u ≠ .pico)
    (hm : n * u.tenths = msat * 10) (hn : n < 2 ^ 32) (h1 : 2 ^ 32 ≤ msat) (h2 : msat < 2 ^ 64) (r r' : Zap.Receipt) (a a' : Option Nat)
    (h : parseReceipt narrow P b cfg e = .ok (r, a)) (h' : parseReceipt wide P b cfg e = .ok (r', a')) :
    r = r' ∧ a' = some msat ∧ a = some (msat % 2 ^ 32) ∧ a ≠ a' := by
  rw [parse_last _ ht, amountOf_unit narrow n u data hn] at h
  rw [parse_last _ ht, amountOf_unit wide n u data (show n < 2 ^ 64 by omega)] at h'
  have hd : n * u.tenths / 10 = msat := by rw [hm, Nat.mul_div_cancel _ (by decide)]
  have e1 : (if u = .pico then n / 10 else n * u.tenths / 10 % 2 ^ narrow) = msat % 2 ^ 32 := by
    rw [if_neg hu, hd]
    rfl
  have e2 : (if u = .pico then n / 10 else n * u.tenths / 10 % 2 ^ wide) = msat := by
    have c : n * u.tenths / 10 % 2 ^ wide = msat := by rw [hd]; exact Nat.mod_eq_of_lt h2
    rw [if_neg hu, c]
  rw [e1] at h
  rw [e2] at h'
  split at h
  · cases h
  rename_i hk
  rw [if_neg hk] at h'
  obtain ⟨x, hx, h⟩ := Res.bind_eq_ok.1 h
  obtain ⟨x', hx', h'⟩ := Res.bind_eq_ok.1 h'
  rw [hx] at hx'
  cases hx'
  cases h
  cases h'
  refine ⟨rfl, rfl, rfl, ?_⟩
  intro hc
  have := Option.some.inj hc
  have := Nat.mod_lt msat (show 0 < 2 ^ 32 by decide)
  omega

/-- So every valid receipt for a request of such an amount is refused (unless the amount is a multiple of 2^32). -/
theorem C206_verify_refuted (C : Crypto) (P : Plat) (b : Build) (cfg : Option Config.Config) (receipt request : Event) (server : Bytes)
    (n : Nat) (u : Unit') (data : Bytes) (msat : Nat)
    (ht : LastTag receipt (c!"bolt11") (c!"lnbc" ++ Num.decNat n ++ [u.letter] ++ c!"1" ++ data)) (hu : u ≠ .pico)
    (hm : n * u.tenths = msat * 10) (hn : n < 2 ^ 32) (h1 : 2 ^ 32 ≤ msat) (h2 : msat < 2 ^ 64) (h0 : msat % 2 ^ 32 ≠ 0)
    (hq : FirstTag request (c!"amount") (Num.decNat msat)) (hv : verifyZap wide C P b cfg receipt request server = .ok ()) :
    verifyZap narrow C P b cfg receipt request server = .err .invalidEvent := by
  unfold verifyZap at hv ⊢
  split at hv
  · cases hv
  rename_i hk
  rw [if_neg hk]
  obtain ⟨hex, hx, hv⟩ := Res.bind_eq_ok.1 hv
  rw [hx]
  simp only [Res.bind_ok]
  split at hv
  · cases hv
  rename_i hs
  rw [if_neg hs]
  obtain ⟨p, hp, hv⟩ := Res.bind_eq_ok.1 hv
  have hp0 := hp
  rw [parse_last _ ht, amountOf_unit wide n u data (show n < 2 ^ 64 by omega)] at hp
  rw [parse_last _ ht, amountOf_unit narrow n u data hn]
  have hd : n * u.tenths / 10 = msat := by rw [hm, Nat.mul_div_cancel _ (by decide)]
  have e1 : (if u = .pico then n / 10 else n * u.tenths / 10 % 2 ^ narrow) = msat % 2 ^ 32 := by
    rw [if_neg hu, hd]
    rfl
  rw [e1]
  split at hp
  · cases hp
  rename_i hk'
  rw [if_neg hk']
  obtain ⟨x, hx', hp⟩ := Res.bind_eq_ok.1 hp
  rw [hx']
  simp only [Res.bind_ok] at hp ⊢
  cases hp
  unfold verifyRead at hv ⊢
  simp only [] at hv ⊢
  cases hr : x.request with
  | none => rfl
  | some q =>
    simp only [hr] at hv ⊢
    split at hv
    · cases hv
    rename_i hid
    rw [if_neg hid]
    obtain ⟨before, rest, after, f1, f2⟩ := hq
    rw [if_pos]
    rw [f1, Zap.Props.requestAmount_of _ _ _ _ f2, Zap.Props.amount_dec h2]
    simp only [Option.getD_some]
    have := Nat.mod_lt msat (show 0 < 2 ^ 32 by decide)
    omega

/-- A request for five million satoshi and a signed receipt for it. -/
def bigRequest : Event :=
  { zero with id := List.replicate 32 0xab, kind := 9734, tags := [[c!"amount", c!"5000000000"]] }

def bigReceipt : Res Event :=
  sign Nostr.Event.Props.toyCrypto (.cjson id fun _ => []) (some []) (List.replicate 32 7)
    { zero with kind := 9735, tags := [[c!"bolt11", c!"lnbc50m1pdata"],
        [c!"description", c!"{\"id\":\"abababababababababababababababababababababababababababababababab\",\"kind\":9734}"]] }

/-- The valid receipt is refused, and a request for 705 032 704 millisatoshi is taken as paid with it. -/
theorem C206_verify_sample_refuted :
    (bigReceipt >>= fun r => verifyZap wide Nostr.Event.Props.toyCrypto ⟨fun _ => 0, false⟩ (.cjson id fun _ => []) none r bigRequest
      (c!"0707070707070707070707070707070707070707070707070707070707070707")) = .ok () ∧
    (bigReceipt >>= fun r => verifyZap narrow Nostr.Event.Props.toyCrypto ⟨fun _ => 0, false⟩ (.cjson id fun _ => []) none r bigRequest
      (c!"0707070707070707070707070707070707070707070707070707070707070707")) = .err .invalidEvent ∧
    (bigReceipt >>= fun r => verifyZap wide Nostr.Event.Props.toyCrypto ⟨fun _ => 0, false⟩ (.cjson id fun _ => []) none r
      { bigRequest with tags := [[c!"amount", c!"705032704"]] }
      (c!"0707070707070707070707070707070707070707070707070707070707070707")) = .err .invalidEvent ∧
    (bigReceipt >>= fun r => verifyZap narrow Nostr.Event.Props.toyCrypto ⟨fun _ => 0, false⟩ (.cjson id fun _ => []) none r
      { bigRequest with tags := [[c!"amount", c!"705032704"]] }
      (c!"0707070707070707070707070707070707070707070707070707070707070707")) = .ok () := by decide +kernel

/-- And a receipt whose invoice text has a large number without a unit makes the reader compute out of range, which is
undefined, where the wide one returns. -/
theorem C206_overflow_refuted (P : Plat) (b : Build) (cfg : Option Config.Config) (e : Event) (n : Nat) (hn : 92233721 ≤ n)
    (hk : e.kind = 9735) (ht : e.tags = [[c!"bolt11", c!"lnbc" ++ Num.decNat n]]) :
    parseReceipt narrow P b cfg e = .ub ∧ parseReceipt wide P b cfg e ≠ .ub := by
  have hl : LastTag e (c!"bolt11") (c!"lnbc" ++ Num.decNat n) := ⟨[], [], [], by rw [ht]; rfl, by simp⟩
  have hscan : Zap.scanTags P b cfg e.tags ⟨none, none, none⟩ = .ok ⟨some (c!"lnbc" ++ Num.decNat n), none, none⟩ := by
    rw [ht]
    rfl
  have hd : (c!"lnbc" ++ Num.decNat n).drop 4 = Num.decNat n := List.drop_left' rfl
  have hstr := Zap.Props.strstr_head (c!"lnbc") (Num.decNat n) (by decide)
  have hsc : Num.scanDec (Num.decNat n) = some (false, n, []) := by
    have := Num.scanDec_decNat (n := n) (rest := []) (by simp)
    rwa [List.append_nil] at this
  constructor
  · rw [parse_last _ hl, if_neg (by simp [hk]), hscan]
    simp only [Res.bind_ok]
    have : amountOf narrow (c!"lnbc" ++ Num.decNat n) = .ub := by
      unfold amountOf
      rw [hstr]
      simp only [hd]
      have h2 : (strtoul narrow (Num.decNat n)).2 = [] := by
        unfold strtoul
        rw [hsc]
        simp only []
        split <;> rfl
      have h3 : 92233721 ≤ (strtoul narrow (Num.decNat n)).1 := by
        unfold strtoul
        rw [hsc]
        simp only [narrow, Bool.false_eq_true, if_false]
        split
        · decide
        · exact hn
      rw [if_pos (by rw [h2]; exact Num.decNat_pos n), h2]
      have : scaled narrow (strtoul narrow (Num.decNat n)).1 (Zap.lower (([] : Bytes).headD 0)) = .ub := by
        generalize (strtoul narrow (Num.decNat n)).1 = x at h3 ⊢
        unfold scaled
        rw [if_neg (by decide), if_neg (by decide), if_neg (by decide), if_neg (by decide), if_neg (by decide), if_pos (by omega)]
      rw [this]
      rfl
    rw [this]
    rfl
  · rw [parse_last _ hl, if_neg (by simp [hk]), hscan, amountOf_wide]
    simp only [Res.bind_ok]
    intro h
    cases h

example : ({ zero with kind := 9735, tags := [[c!"bolt11", c!"lnbc" ++ Num.decNat 100000000]] } : Event).tags =
    [[c!"bolt11", c!"lnbc100000000"]] := by decide +kernel

/-! ## Configuration -/

/-- **C206** for `nostr_config_load_env` and `nostr_init_with_config(NULL)`: with variables that are unset, are not numbers or
are numbers their setting can hold, the same configuration is loaded, and accepted or refused alike. -/
theorem C206_env_partial (env : Config.Env) (h : ∀ v ∈ Config.Spec.variables, ∀ t, env v.1 = some t → Within v.2.2.1 v.2.2.2 t) :
    (∀ c, loadEnv narrow env c = loadEnv wide env c) ∧ fromEnv narrow env = fromEnv wide env := by
  have u (name : Bytes) (d : Nat) (hn : ∀ t, env name = some t → Within 0 (2 ^ 32 - 1) t) :
      parseU32 narrow env name d = parseU32 wide env name d := by
    unfold parseU32
    cases he : env name with
    | none => rfl
    | some t => simp only [strtoul_within (hn t he)]
  have i (name : Bytes) (d : Int) (hn : ∀ t, env name = some t → Within (-2 ^ 31) (2 ^ 31 - 1) t) :
      parseI32 narrow env name d = parseI32 wide env name d := by
    unfold parseI32
    cases he : env name with
    | none => rfl
    | some t => simp only [strtol_within (hn t he)]
  have key : ∀ c, loadEnv narrow env c = loadEnv wide env c := by
    intro c
    simp only [Config.Spec.variables, List.mem_cons, List.not_mem_nil, or_false, forall_eq_or_imp, forall_eq] at h
    obtain ⟨h1, h2, h3, h4, h5, h6, h7, h8, h9, h10, h11, h12, h13⟩ := h
    unfold loadEnv
    rw [u _ _ h1, u _ _ h2, u _ _ h3, u _ _ h4, u _ _ h5, u _ _ h6, u _ _ h7, u _ _ h8, u _ _ h9, u _ _ h10, i _ _ h11, i _ _ h12, i _ _ h13]
  refine ⟨key, ?_⟩
  unfold fromEnv
  rw [key]

/-- An environment with one variable. -/
def only (name value : Bytes) : Config.Env := fun n => if n = name then some value else none

/-- C206 fails for numbers out of range: the wide reader ignores them, the narrow one takes the nearest number, and the
initialisation then fails; and a negative number far out of range becomes a small positive one. -/
theorem C206_env_refuted :
    (fromEnv wide (only (c!"NOSTR_MAX_SESSIONS") (c!"4294967296")) = .ok Config.defaults ∧
     fromEnv narrow (only (c!"NOSTR_MAX_SESSIONS") (c!"4294967296")) = .err .invalidParam) ∧
    (fromEnv wide (only (c!"NOSTR_DEBUG") (c!"-2147483649")) = .ok Config.defaults ∧
     fromEnv narrow (only (c!"NOSTR_DEBUG") (c!"-2147483649")) = .err .invalidParam) ∧
    (fromEnv wide (only (c!"NOSTR_MAX_SESSIONS") (c!"-4294967295")) = .ok Config.defaults ∧
     fromEnv narrow (only (c!"NOSTR_MAX_SESSIONS") (c!"-4294967295")) = .ok { Config.defaults with maxSessions := 1 }) := by
  decide +kernel

example : ∀ v ∈ Config.Spec.variables, ∀ t, only (c!"NOSTR_MAX_TAGS") (c!"250") v.1 = some t → Within v.2.2.1 v.2.2.2 t := by
  intro v hv t ht
  unfold only at ht
  split at ht
  · cases ht
    simp only [Config.Spec.variables, List.mem_cons, List.not_mem_nil, or_false] at hv
    have hw := fun lo hi a c => within_dec (lo := lo) (hi := hi) (n := 250) (rest := []) (by simp) a c
    have e : Num.decNat 250 ++ [] = c!"250" := by decide
    rw [e] at hw
    rcases hv with rfl | rfl | rfl | rfl | rfl | rfl | rfl | rfl | rfl | rfl | rfl | rfl | rfl <;> exact hw _ _ (by decide) (by decide)
  · cases ht

/-! ## Derivation paths -/

/-- The values of the two readings agree modulo 2^32 unless the number does not fit. -/
theorem strtoul_mod (t : Bytes) : (strtoul narrow t).2 = (strtoul wide t).2 ∧
    ((strtoul narrow t).1 % 2 ^ 32 = (strtoul wide t).1 % 2 ^ 32 ∨
      ((strtoul narrow t).1 = 2 ^ 32 - 1 ∧ ∃ neg m rest, Num.scanDec t = some (neg, m, rest) ∧ 2 ^ 32 ≤ m)) := by
  suffices ∀ w v, w = 32 → v = 64 → (strtoul w t).2 = (strtoul v t).2 ∧
    ((strtoul w t).1 % 2 ^ 32 = (strtoul v t).1 % 2 ^ 32 ∨
      ((strtoul w t).1 = 2 ^ 32 - 1 ∧ ∃ neg m rest, Num.scanDec t = some (neg, m, rest) ∧ 2 ^ 32 ≤ m)) from this _ _ rfl rfl
  intro w v hw hv
  subst hw hv
  unfold strtoul
  cases hs : Num.scanDec t with
  | none => exact ⟨rfl, .inl rfl⟩
  | some x =>
    obtain ⟨neg, m, rest⟩ := x
    simp only []
    by_cases h1 : m ≥ 2 ^ 32
    · rw [if_pos h1]
      constructor
      · split <;> rfl
      · exact .inr ⟨rfl, neg, m, rest, rfl, h1⟩
    · rw [if_neg h1, if_neg (show ¬ m ≥ 2 ^ 64 by omega)]
      refine ⟨rfl, .inl ?_⟩
      cases neg with
      | false => rfl
      | true =>
        simp only [if_true]
        omega

theorem component_cases (t : Bytes) : component narrow t = none ∨ component narrow t = component wide t := by
  unfold component
  simp only []
  generalize (decide (t.length > 0) && (t.getLast? == some 0x27 || t.getLast? == some 0x68)) = hd
  generalize (if hd = true then t.dropLast else t) = s
  obtain ⟨h1, h2 | ⟨h2, _⟩⟩ := strtoul_mod s
  · right
    rw [h1, h2]
  · left
    rw [if_pos]
    right
    rw [h2]
    decide

theorem pathLoop_cases (C : Hd.Crypto) : ∀ (ts : List Bytes) (k : Hd.HdKey),
    pathLoop narrow C ts k = .err .invalidParam ∨ pathLoop narrow C ts k = pathLoop wide C ts k
  | [], _ => .inr rfl
  | t :: ts, k => by
    simp only [pathLoop]
    rcases component_cases t with h | h
    · left
      rw [h]
    · rw [h]
      cases component wide t with
      | none => exact .inl rfl
      | some i =>
        simp only []
        cases Hd.derive C k i with
        | ok n => exact pathLoop_cases C ts n
        | err x => exact .inr rfl
        | ub => exact .inr rfl

theorem pathLoop_same (C : Hd.Crypto) : ∀ (ts : List Bytes) (k : Hd.HdKey), (∀ t ∈ ts, component narrow t = component wide t) →
    pathLoop narrow C ts k = pathLoop wide C ts k
  | [], _, _ => rfl
  | t :: ts, k, h => by
    simp only [pathLoop, h t (by simp)]
    cases component wide t with
    | none => rfl
    | some i =>
      simp only []
      congr 1
      funext n
      exact pathLoop_same C ts n fun t' ht => h t' (by simp [ht])

theorem tokens_text (c : Nat × Hd.Spec.Mark) (cs : List (Nat × Hd.Spec.Mark)) : ∃ r, Hd.Spec.pathText (c :: cs) = 0x6d :: 0x2f :: r ∧
    Text.tokens 0x2f r = (c :: cs).map Hd.Props.compText := by
  refine ⟨Text.join 0x2f ((c :: cs).map Hd.Props.compText), ?_, ?_⟩
  · rw [List.map_cons, Hd.Props.join_slash, List.flatMap_map]
    unfold Hd.Spec.pathText
    rw [List.flatMap_cons]
    have hf : (cs.flatMap fun c => c!"/" ++ Num.decNat c.1 ++ c.2.text) = cs.flatMap fun c => [0x2f] ++ Hd.Props.compText c := by
      congr 1
    rw [hf]
    show [0x6d] ++ ([0x2f] ++ Num.decNat c.1 ++ c.2.text ++ _) = _
    simp [Hd.Props.compText]
  · rw [Text.tokens_join]
    intro t ht
    obtain ⟨d, _, rfl⟩ := List.mem_map.1 ht
    exact Hd.Props.compText_ok d

theorem component_number {c : Nat × Hd.Spec.Mark} (h : c.1 < 2 ^ 32) : component narrow (Hd.Props.compText c) = component wide (Hd.Props.compText c) := by
  have hsc : strtoul narrow (Num.decNat c.1) = strtoul wide (Num.decNat c.1) := by
    have := within_dec (lo := 0) (hi := 2 ^ 32 - 1) (n := c.1) (rest := []) (by simp) (by omega) (by omega)
    rw [List.append_nil] at this
    exact strtoul_within this
  have hlast : ∀ x, (Num.decNat c.1).getLast? = some x → x ≠ 0x27 ∧ x ≠ 0x68 := by
    intro x hx
    have hd := Num.decNat_digits c.1 x (List.mem_of_getLast? hx)
    constructor <;> (rintro rfl; revert hd; decide)
  unfold component
  simp only []
  have hs : (if (decide ((Hd.Props.compText c).length > 0) && ((Hd.Props.compText c).getLast? == some 0x27 || (Hd.Props.compText c).getLast? == some 0x68)) = true
      then (Hd.Props.compText c).dropLast else Hd.Props.compText c) = Num.decNat c.1 := by
    unfold Hd.Props.compText
    cases hm : c.2 with
    | none =>
      simp only [Hd.Spec.Mark.text, List.append_nil]
      cases hl : (Num.decNat c.1).getLast? with
      | none => exact absurd (List.getLast?_eq_none_iff.1 hl) (Num.decNat_ne _)
      | some x =>
        have := hlast x hl
        rw [if_neg]
        simp [this.1, this.2]
    | apostrophe => simp [Hd.Spec.Mark.text]
    | h => simp [Hd.Spec.Mark.text]
  rw [hs, hsc]

/-- **C206** for `nostr_hd_key_derive_path`: a path of numbers below 2^32 gives the same key or the same error, and any other
text gives what it gives on a wide platform or is refused. -/
theorem C206_path_partial (C : Hd.Crypto) (master : Hd.HdKey) :
    (∀ cs : List (Nat × Hd.Spec.Mark), (∀ c ∈ cs, c.1 < 2 ^ 32) →
      derivePath narrow C master (Hd.Spec.pathText cs) = derivePath wide C master (Hd.Spec.pathText cs)) ∧
    (∀ path, derivePath narrow C master path = .err .invalidParam ∨ derivePath narrow C master path = derivePath wide C master path) := by
  constructor
  · intro cs h
    cases cs with
    | nil => rfl
    | cons c cs =>
      obtain ⟨r, h1, h2⟩ := tokens_text c cs
      rw [h1]
      show pathLoop narrow C (Text.tokens 0x2f r) master = pathLoop wide C (Text.tokens 0x2f r) master
      rw [h2]
      apply pathLoop_same
      intro t ht
      obtain ⟨d, hd, rfl⟩ := List.mem_map.1 ht
      exact component_number (h d hd)
  · intro path
    unfold derivePath
    split
    · exact .inr rfl
    · exact pathLoop_cases C _ _
    · exact .inl rfl

/-- C206 fails for numbers of 2^32 and more: the wide reader takes them modulo 2^32, the narrow one refuses them. -/
theorem C206_path_refuted (C : Hd.Crypto) (master : Hd.HdKey) :
    derivePath narrow C master (c!"m/4294967296") = .err .invalidParam ∧
    derivePath wide C master (c!"m/4294967296") = derivePath wide C master (c!"m/0") ∧
    ∃ k, derivePath wide Hd.Props.toyCrypto ⟨List.replicate 32 1, List.replicate 32 2, List.replicate 32 3⟩ (c!"m/4294967296") = .ok k := by
  refine ⟨?_, ?_, ?_⟩
  · show pathLoop narrow C (Text.tokens 0x2f (c!"4294967296")) master = _
    rw [show Text.tokens 0x2f (c!"4294967296") = [c!"4294967296"] by decide]
    simp only [pathLoop, show component narrow (c!"4294967296") = none by decide +kernel]
  · rw [path_wide, path_wide]
    exact (Hd.Props.C66_alias_refuted C master).1
  · show ∃ k, pathLoop wide _ (Text.tokens 0x2f (c!"4294967296")) _ = .ok k
    rw [show Text.tokens 0x2f (c!"4294967296") = [c!"4294967296"] by decide]
    simp only [pathLoop, show component wide (c!"4294967296") = some 0 by decide +kernel]
    exact ⟨_, rfl⟩

/-! ## Kinds -/

theorem scan_nominus {s : Bytes} {neg : Bool} {m : Nat} {rest : Bytes} (h : (0x2d : UInt8) ∉ s) (hs : Num.scanDec s = some (neg, m, rest)) :
    neg = false ∧ (0x2d : UInt8) ∉ rest := by
  unfold Num.scanDec at hs
  simp only [] at hs
  by_cases he : (if ((s.dropWhile Num.isSpace).head? == some 0x2d || (s.dropWhile Num.isSpace).head? == some 0x2b) = true then
      (s.dropWhile Num.isSpace).tail else s.dropWhile Num.isSpace).takeWhile Num.isDigit = []
  · rw [if_pos he] at hs
    cases hs
  rw [if_neg he] at hs
  simp only [Option.some.injEq, Prod.mk.injEq] at hs
  obtain ⟨rfl, _, rfl⟩ := hs
  have hsub : ∀ x ∈ s.dropWhile Num.isSpace, x ∈ s := fun x hx => (List.dropWhile_sublist _).subset hx
  constructor
  · cases hd : (s.dropWhile Num.isSpace).head? with
    | none => rfl
    | some c =>
      have : c ∈ s := hsub c (List.mem_of_head? hd)
      have hc : c ≠ 0x2d := by rintro rfl; exact h this
      simp [hc]
  · intro hx
    have hx := (List.dropWhile_sublist _).subset hx
    split at hx
    · exact h (hsub _ (List.mem_of_mem_tail hx))
    · exact h (hsub _ hx)

theorem kindNum_same {p : Bytes} (h : (0x2d : UInt8) ∉ p) : kindNum narrow p = kindNum wide p := by
  suffices ∀ w v, w = 32 → v = 64 → kindNum w p = kindNum v p from this _ _ rfl rfl
  intro w v hw hv
  subst hw hv
  unfold kindNum
  cases hs : Num.scanDec p with
  | none => rfl
  | some x =>
    obtain ⟨neg, m, rest⟩ := x
    obtain ⟨rfl, _⟩ := scan_nominus h hs
    simp only [Bool.false_eq_true, if_false]
    by_cases h1 : m > 65535
    · rw [if_pos h1]
      split <;> split <;> rfl
    · rw [if_neg (show ¬ m ≥ 2 ^ 32 by omega), if_neg (show ¬ m ≥ 2 ^ 64 by omega)]

theorem clause_rest {p : Bytes} {c c' : Nip26.Cond} {rest : Bytes} (h : (0x2d : UInt8) ∉ p) (hc : clause wide p c = some (c', rest)) :
    (0x2d : UInt8) ∉ rest := by
  have hdrop (k : Nat) : (0x2d : UInt8) ∉ p.drop k := fun hx => h (List.mem_of_mem_drop hx)
  have kn (q : Bytes) (k : Nat) (r : Bytes) (hq : (0x2d : UInt8) ∉ q) (hk : kindNum wide q = some (k, r)) : (0x2d : UInt8) ∉ r := by
    unfold kindNum at hk
    cases hs : Num.scanDec q with
    | none => rw [hs] at hk; cases hk
    | some x =>
      obtain ⟨neg, m, rest⟩ := x
      rw [hs] at hk
      simp only [] at hk
      by_cases a1 : m ≥ 2 ^ wide
      · rw [if_pos a1] at hk
        cases hk
      rw [if_neg a1] at hk
      by_cases a2 : (if neg = true then (2 ^ wide - m) % 2 ^ wide else m) > 65535
      · rw [if_pos a2] at hk
        cases hk
      rw [if_neg a2] at hk
      simp only [Option.some.injEq, Prod.mk.injEq] at hk
      obtain ⟨_, rfl⟩ := hk
      exact (scan_nominus hq hs).2
  have tn (q : Bytes) (k : Int) (r : Bytes) (hq : (0x2d : UInt8) ∉ q) (hk : Nip26.timeNum q = some (k, r)) : (0x2d : UInt8) ∉ r := by
    unfold Nip26.timeNum at hk
    cases hs : Num.scanDec q with
    | none => rw [hs] at hk; cases hk
    | some x =>
      obtain ⟨neg, m, rest⟩ := x
      rw [hs] at hk
      simp only [] at hk
      by_cases a1 : (if neg = true then -(m : Int) else m) < -2 ^ 63 ∨ (if neg = true then -(m : Int) else m) > 2 ^ 63 - 1
      · rw [if_pos a1] at hk
        cases hk
      rw [if_neg a1] at hk
      simp only [Option.some.injEq, Prod.mk.injEq] at hk
      obtain ⟨_, rfl⟩ := hk
      exact (scan_nominus hq hs).2
  unfold clause at hc
  by_cases h1 : p.take 5 = c!"kind="
  · rw [if_pos h1] at hc
    cases hk : kindNum wide (p.drop 5) with
    | none => rw [hk] at hc; cases hc
    | some x =>
      obtain ⟨k, r⟩ := x
      rw [hk] at hc
      simp only [] at hc
      split at hc
      · cases hc
      · simp only [Option.some.injEq, Prod.mk.injEq] at hc
        obtain ⟨_, rfl⟩ := hc
        exact kn _ _ _ (hdrop 5) hk
  · rw [if_neg h1] at hc
    unfold Nip26.clause at hc
    rw [if_neg h1] at hc
    by_cases h2 : p.take 11 = c!"created_at>"
    · rw [if_pos h2] at hc
      cases hk : Nip26.timeNum (p.drop 11) with
      | none => rw [hk] at hc; cases hc
      | some x =>
        obtain ⟨k, r⟩ := x
        rw [hk] at hc
        simp only [Option.some.injEq, Prod.mk.injEq] at hc
        obtain ⟨_, rfl⟩ := hc
        exact tn _ _ _ (hdrop 11) hk
    · rw [if_neg h2] at hc
      by_cases h3 : p.take 11 = c!"created_at<"
      · rw [if_pos h3] at hc
        cases hk : Nip26.timeNum (p.drop 11) with
        | none => rw [hk] at hc; cases hc
        | some x =>
          obtain ⟨k, r⟩ := x
          rw [hk] at hc
          simp only [Option.some.injEq, Prod.mk.injEq] at hc
          obtain ⟨_, rfl⟩ := hc
          exact tn _ _ _ (hdrop 11) hk
      · rw [if_neg h3] at hc
        cases hc

theorem loop_same : ∀ (f : Nat) (s : Bytes) (c : Nip26.Cond) (n : Nat), (0x2d : UInt8) ∉ s → loop narrow f s c n = loop wide f s c n
  | 0, [], _, _, _ => rfl
  | _ + 1, [], _, _, _ => rfl
  | 0, _ :: _, _, _, _ => rfl
  | f + 1, b :: s, c, n, h => by
    simp only [loop]
    have hd : ∀ x ∈ (b :: s).dropWhile (· == 0x26), x ∈ b :: s := fun x hx => (List.dropWhile_sublist _).subset hx
    cases hp : (b :: s).dropWhile (· == 0x26) with
    | nil => rfl
    | cons d p =>
      rw [hp] at hd
      have hn : (0x2d : UInt8) ∉ d :: p := fun hx => h (hd _ hx)
      have hc : clause narrow (d :: p) c = clause wide (d :: p) c := by
        unfold clause
        rw [kindNum_same (fun hx => hn (List.mem_of_mem_drop hx))]
      simp only [hc]
      cases hw : clause wide (d :: p) c with
      | none => rfl
      | some x => exact loop_same f _ _ _ (clause_rest hn hw)

/-- **C206** for the conditions of a delegation (`nostr_delegation_create`, `nostr_event_get_delegation`): a text without a
minus sign is refused alike or read as the same conditions. -/
theorem C206_conditions_partial (s : Bytes) (h : (0x2d : UInt8) ∉ s) : parseConditions narrow s = parseConditions wide s := by
  unfold parseConditions
  rw [loop_same _ _ _ _ h]

example : (0x2d : UInt8) ∉ c!"kind=1&created_at>5" ∧
    parseConditions narrow (c!"kind=1&created_at>5") = some ⟨[1], some 5, none⟩ := by decide +kernel

/-- C206 fails for negative kinds: refused by the wide reader, the narrow one takes some of them for a kind; and the other
way round. -/
theorem C206_conditions_refuted :
    parseConditions wide (c!"kind=-4294967295") = none ∧ parseConditions narrow (c!"kind=-4294967295") = some ⟨[1], none, none⟩ ∧
    parseConditions wide (c!"kind=-18446744073709551615") = some ⟨[1], none, none⟩ ∧
    parseConditions narrow (c!"kind=-18446744073709551615") = none := by decide +kernel

theorem repostKind_same {v : Bytes} (h : (0x2d : UInt8) ∉ v) : repostKind narrow v = repostKind wide v := by
  suffices ∀ w x, w = 32 → x = 64 → repostKind w v = repostKind x v from this _ _ rfl rfl
  intro w x hw hv
  subst hw hv
  unfold repostKind
  cases hs : Num.scanDec v with
  | none => rfl
  | some y =>
    obtain ⟨neg, m, rest⟩ := y
    obtain ⟨rfl, _⟩ := scan_nominus h hs
    cases rest with
    | cons _ _ => rfl
    | nil =>
      simp only [Bool.false_eq_true, if_false]
      by_cases h1 : m ≤ 65535
      · rw [if_neg (show ¬ m ≥ 2 ^ 32 by omega), if_neg (show ¬ m ≥ 2 ^ 64 by omega)]
      · rw [if_neg h1]
        split <;> split <;> rfl

theorem foldl_same {α β : Type} {f g : α → β → α} : ∀ (l : List β) (a : α), (∀ a, ∀ b ∈ l, f a b = g a b) → l.foldl f a = l.foldl g a
  | [], _, _ => rfl
  | b :: l, a, h => by
    simp only [List.foldl_cons, h a b (by simp)]
    exact foldl_same l _ fun a b hb => h a b (by simp [hb])

/-- **C206** for `nostr_repost_parse`: reposts whose `k` tags have no minus sign are read alike. -/
theorem C206_repost_partial (e : Event) (a b c : Nat) (h : ∀ v rest, (c!"k" :: v :: rest) ∈ e.tags → (0x2d : UInt8) ∉ v) :
    repostParse narrow e a b c = repostParse wide e a b c := by
  unfold repostParse
  have : ∀ f, e.tags.foldl (repostTag narrow) f = e.tags.foldl (repostTag wide) f := by
    intro f
    apply foldl_same
    intro f t ht
    unfold repostTag
    split
    · rename_i name value rest
      by_cases hk : name = c!"k"
      · rw [if_pos hk, if_pos hk, repostKind_same (h value rest (hk ▸ ht))]
      · rw [if_neg hk, if_neg hk]
    · rfl
  simp only [this]

theorem reactionKind_same {v : Bytes} (h : Within 0 (2 ^ 32 - 1) v) : reactionKind narrow v = reactionKind wide v := by
  suffices ∀ w x, w = 32 → x = 64 → reactionKind w v = reactionKind x v from this _ _ rfl rfl
  intro w x hw hv
  subst hw hv
  unfold reactionKind
  cases hs : Num.scanDec v with
  | none => rfl
  | some y =>
    obtain ⟨neg, m, rest⟩ := y
    obtain ⟨h1, h2⟩ := h neg m rest hs
    cases rest with
    | cons _ _ => rfl
    | nil =>
      simp only []
      cases neg with
      | false =>
        simp only [Bool.false_eq_true, if_false] at h1 h2 ⊢
        rw [if_neg (by omega), if_neg (by omega)]
      | true =>
        simp only [if_true] at h1 h2 ⊢
        have : m = 0 := by omega
        subst this
        rfl

/-- **C206** for `nostr_reaction_parse`: reactions whose `k` tags hold numbers from 0 to 2^32 - 1 (or none) are read alike. -/
theorem C206_reaction_partial (e : Event) (a b c : Nat) (h : ∀ v rest, (c!"k" :: v :: rest) ∈ e.tags → Within 0 (2 ^ 32 - 1) v) :
    reactionParse narrow e a b c = reactionParse wide e a b c := by
  unfold reactionParse
  have : ∀ f, e.tags.foldl (reactionTag narrow) f = e.tags.foldl (reactionTag wide) f := by
    intro f
    apply foldl_same
    intro f t ht
    unfold reactionTag
    split
    · rename_i name value rest
      by_cases hk : name = c!"k"
      · rw [if_pos hk, if_pos hk, reactionKind_same (h value rest (hk ▸ ht))]
      · rw [if_neg hk, if_neg hk]
    · rfl
  simp only [this]

example : ∀ v rest, (c!"k" :: v :: rest) ∈ ({ zero with kind := 7, tags := [[c!"e", c!"ab"], [c!"k", c!"30023"]] } : Event).tags →
    Within 0 (2 ^ 32 - 1) v ∧ (0x2d : UInt8) ∉ v := by
  intro v rest h
  simp at h
  obtain ⟨rfl, _⟩ := h
  refine ⟨?_, by decide⟩
  have := within_dec (lo := 0) (hi := 2 ^ 32 - 1) (n := 30023) (rest := []) (by simp) (by decide) (by decide)
  rwa [show Num.decNat 30023 ++ [] = c!"30023" by decide] at this

/-- C206 fails for other `k` tags: a kind of 2^32 or more in a reaction is 65535 to the wide reader and none to the narrow one;
a negative number that is ignored or 65535 is kind 1. -/
theorem C206_kind_refuted :
    (reactionParse wide { zero with kind := 7, tags := [[c!"e", c!"ab"], [c!"k", c!"4294967296"]] } 9 9 9 = .ok ([], c!"ab", [], 65535) ∧
     reactionParse narrow { zero with kind := 7, tags := [[c!"e", c!"ab"], [c!"k", c!"4294967296"]] } 9 9 9 = .ok ([], c!"ab", [], 0)) ∧
    (reactionParse wide { zero with kind := 7, tags := [[c!"e", c!"ab"], [c!"k", c!"-4294967295"]] } 9 9 9 = .ok ([], c!"ab", [], 65535) ∧
     reactionParse narrow { zero with kind := 7, tags := [[c!"e", c!"ab"], [c!"k", c!"-4294967295"]] } 9 9 9 = .ok ([], c!"ab", [], 1)) ∧
    (repostParse wide { zero with kind := 16, tags := [[c!"e", c!"ab"], [c!"k", c!"-4294967295"]] } 9 9 9 = .ok (c!"ab", [], [], 0) ∧
     repostParse narrow { zero with kind := 16, tags := [[c!"e", c!"ab"], [c!"k", c!"-4294967295"]] } 9 9 9 = .ok (c!"ab", [], [], 1)) := by
  refine ⟨⟨?_, ?_⟩, ⟨?_, ?_⟩, ⟨?_, ?_⟩⟩ <;> rfl

/-! ## Wallet commands -/

/-- **C206** for `nostr_nip47_create_pay_keysend_params` (with cJSON): records whose types are numbers of 32 bits with sign, or not
numbers, are written alike. -/
theorem C206_keysend_partial (td : Int → Int) (fr : Int → Bytes) (amount : Nat) (pubkey : Bytes) (preimage : Option Bytes) (tlv : List Bytes)
    (h : ∀ p ∈ Nip47.tlvPairs tlv, Within (-2 ^ 31) (2 ^ 31 - 1) p.1) :
    payKeysend narrow td fr amount pubkey preimage tlv = payKeysend wide td fr amount pubkey preimage tlv := by
  unfold payKeysend tlvField
  have : (Nip47.tlvPairs tlv).map (tlvTree narrow td fr) = (Nip47.tlvPairs tlv).map (tlvTree wide td fr) := by
    apply List.map_congr_left
    intro p hp
    unfold tlvTree
    rw [strtol_within (h p hp)]
  rw [this]

/-- C206 fails for larger types: 5482373484, the record in which a keysend payment carries its preimage, becomes 2147483647. -/
theorem C206_keysend_refuted :
    payKeysend wide id (fun _ => []) 1000 (c!"02ab") none [c!"5482373484", c!"00ff"] =
      .ok (c!"{\"amount\":1000,\"pubkey\":\"02ab\",\"tlv_records\":[{\"type\":5482373484,\"value\":\"00ff\"}]}") ∧
    payKeysend narrow id (fun _ => []) 1000 (c!"02ab") none [c!"5482373484", c!"00ff"] =
      .ok (c!"{\"amount\":1000,\"pubkey\":\"02ab\",\"tlv_records\":[{\"type\":2147483647,\"value\":\"00ff\"}]}") := by
  decide +kernel

example : ∀ p ∈ Nip47.tlvPairs [c!"7629169", c!"00ff"], Within (-2 ^ 31) (2 ^ 31 - 1) p.1 := by
  intro p hp
  have := within_dec (lo := -2 ^ 31) (hi := 2 ^ 31 - 1) (n := 7629169) (rest := []) (by simp) (by decide) (by decide)
  rw [show Num.decNat 7629169 ++ [] = c!"7629169" by decide] at this
  simp only [Nip47.tlvPairs, List.mem_singleton] at hp
  subst hp
  exact this

/-- **C206** for `nostr_nip47_create_list_transactions_params` without cJSON, with times of 64 bits: without times the text is the
same. -/
theorem C206_list_partial (limit offset : Option Nat) (unpaid : Option Bool) (type : Option Bytes) :
    listTxPlain narrow 64 none none limit offset unpaid type = listTxPlain wide 64 none none limit offset unpaid type := by
  unfold listTxPlain
  rw [if_neg (by simp), if_neg (by simp)]

/-- C206 fails with any time: it is printed through a format for a narrower number, which is undefined. -/
theorem C206_list_refuted (f u : Option Int) (limit offset : Option Nat) (unpaid : Option Bool) (type : Option Bytes)
    (h : f.isSome ∨ u.isSome) : listTxPlain narrow 64 f u limit offset unpaid type = .ub ∧
      listTxPlain wide 64 f u limit offset unpaid type = Nip47.listTxPlain f u limit offset unpaid type := by
  unfold listTxPlain
  rw [if_pos ⟨by decide, h⟩, if_neg (by intro h; exact h.1 rfl)]
  exact ⟨rfl, rfl⟩

end Nostr.Long.Props
