import Verif.Outbuf.Wallet
import Verif.Outbuf.SetSpec
import Verif.Nip47.Props
import Verif.Double.ConvertProps

/-! # Property theorems: C208 for the answers of a wallet -/

namespace Nostr.Outbuf.Props
open Nostr Nostr.Event Nostr.Json Nostr.Outbuf Nostr.Outbuf.Spec
open Nostr.Nip47.Props (replyTree errorTree)

/-- The same outputs are given. -/
def Answer.Same (a b : Answer) : Prop :=
  a.type.isSome = b.type.isSome ∧ a.result.isSome = b.result.isSome ∧ a.code.isSome = b.code.isSome ∧ a.message.isSome = b.message.isSome

theorem keep_some {α : Type} (x : α) {a b : Option (Option α)} (h : a.isSome = b.isSome) : keep (some x) a = keep (some x) b := by
  cases a <;> cases b <;> simp_all [keep]

theorem keep_none {α : Type} (a : Option (Option α)) : keep none a = a := by
  cases a <;> simp [keep]

theorem map_same {α β : Type} {a b : Option α} (h : a.isSome = b.isSome) (x : β) : (a.map fun _ => x) = b.map fun _ => x := by
  cases a <;> cases b <;> simp_all

/-- If the caller asked for this output, it now holds `x`. -/
def Holds (v v' : Var) (x : Option Bytes) : Prop := v.isSome → v' = some x

theorem keep_holds (x : Bytes) (v : Var) : Holds v (keep (some x) v) (some x) := by
  cases v <;> simp [Holds, keep]

theorem map_holds (x : Option Bytes) (v : Var) : Holds v (v.map fun _ => x) x := by
  cases v <;> simp [Holds]

/-- The answer of the wallet is opened to the text of this document. -/
def Opens (E : Nip47.Env) (e : Event) (sk : Bytes) (doc : Json) : Prop := Nip47.openResponse E e sk = .ok (print false 0 doc)

theorem error_read {E : Nip47.Env} {r : Bytes → Json} {e : Event} {sk type code message : Bytes} (ht : CStr type) (hc : CStr code)
    (hm : CStr message) (ho : Opens E e sk (errorTree type code message)) :
    ∃ x, Nip47.parseResponse E r e sk = .ok ⟨some type, some x, some code, some message⟩ := by
  have hg : Good (errorTree type code message) := by
    simp only [errorTree, Good, GoodM]; exact ⟨by decide, ht, by decide, ⟨by decide, hc, by decide, hm, trivial⟩, by decide, trivial, trivial⟩
  have := parse_print false 0 (errorTree type code message) hg (by simp [errorTree, height, heightM, nestingLimit]) [] (by intro c hc; simp at hc)
  rw [List.append_nil] at this
  unfold Nip47.parseResponse Nip47.replyOf
  rw [ho]
  simp only [Res.bind_ok, cstr_self (print_cstr false 0 _ hg), this]
  exact ⟨_, rfl⟩

theorem result_read {E : Nip47.Env} {r : Bytes → Json} {e : Event} {sk type : Bytes} {j : Json} (ht : CStr type) (hj : Good j)
    (hh : height j < nestingLimit) (ho : Opens E e sk (replyTree type j)) :
    Nip47.parseResponse E r e sk = .ok ⟨some type, some (reprint r j), none, none⟩ := by
  have hg : Good (replyTree type j) := by
    simp only [replyTree, Good, GoodM]; exact ⟨by decide, ht, by decide, trivial, by decide, hj, trivial⟩
  unfold Nip47.parseResponse
  rw [ho]
  simp only [Res.bind_ok, cstr_self (print_cstr false 0 _ hg)]
  exact Nip47.Props.C42_result ht hj hh false

/-- **C208** (responses, part): from a refusal as NIP-47 prescribes it (type, code and message, and the result null) every output is set.
Missing: answers with a result, `C208_response_refuted`. -/
theorem C208_response_partial (E : Nip47.Env) (r : Bytes → Json) (e : Event) (sk type code message : Bytes) (ht : CStr type)
    (hc : CStr code) (hm : CStr message) (ho : Opens E e sk (errorTree type code message)) :
    Sets Answer.Same Eq (responseTo E r e sk) ∧
    ∀ o, ∃ o', responseTo E r e sk o = .ok (none, o') ∧ Holds o.type o'.type (some type) ∧ Holds o.code o'.code (some code) ∧
      Holds o.message o'.message (some message) := by
  obtain ⟨x, hx⟩ := error_read (r := r) ht hc hm ho
  constructor
  · intro a b hs
    unfold responseTo
    rw [hx]
    refine ⟨_, _, _, rfl, rfl, fun _ => ?_⟩
    simp only [keep_some _ hs.1, keep_some _ hs.2.1, keep_some _ hs.2.2.1, keep_some _ hs.2.2.2]
  · intro o
    unfold responseTo
    rw [hx]
    exact ⟨_, rfl, keep_holds _ _, keep_holds _ _, keep_holds _ _⟩

/-- **C208** fails for every answer with a result: code and message of the error keep what the variables held, so a caller who did not
set them to NULL takes a payment that succeeded for one that failed (nip47.c:629-645). -/
theorem C208_response_refuted (E : Nip47.Env) (r : Bytes → Json) (e : Event) (sk type : Bytes) (j : Json) (ht : CStr type) (hj : Good j)
    (hh : height j < nestingLimit) (ho : Opens E e sk (replyTree type j)) :
    (∀ o, ∃ o', responseTo E r e sk o = .ok (none, o') ∧ Holds o.type o'.type (some type) ∧
      Holds o.result o'.result (some (reprint r j)) ∧ o'.code = o.code ∧ o'.message = o.message) ∧
    ¬ Sets Answer.Same Eq (responseTo E r e sk) := by
  have hx := result_read (r := r) ht hj hh ho
  have key : ∀ o, responseTo E r e sk o = .ok (none, ⟨keep (some type) o.type, keep (some (reprint r j)) o.result, o.code, o.message⟩) := by
    intro o
    unfold responseTo
    rw [hx]
    simp only [keep_none]
  refine ⟨fun o => ⟨_, key o, keep_holds _ _, keep_holds _ _, rfl, rfl⟩, fun hS => ?_⟩
  obtain ⟨code, a', b', h1, h2, h3⟩ := hS ⟨none, none, some none, none⟩ ⟨none, none, some (some (c!"INTERNAL")), none⟩ ⟨rfl, rfl, rfl, rfl⟩
  rw [key] at h1 h2
  cases h1; cases h2
  have := h3 rfl
  cases this

/-- **C208** (responses without cJSON): every output is set, type and result to fixed texts (C193), code and message to NULL. -/
theorem C208_bare_response (E : Nip47.Env) (e : Event) (sk : Bytes) (hd : Nip47.openResponse E e sk ≠ .ub) :
    Sets Answer.Same Eq (responseBareTo E e sk) ∧
    ∀ t, Nip47.openResponse E e sk = .ok t → ∀ o, ∃ o', responseBareTo E e sk o = .ok (none, o') ∧
      Holds o.type o'.type (some (c!"unknown")) ∧ Holds o.result o'.result (some (c!"{}")) ∧ Holds o.code o'.code none ∧
      Holds o.message o'.message none := by
  refine ⟨?_, fun t ht o => ?_⟩
  rotate_left
  · unfold responseBareTo Nip47.responseBare
    rw [ht]
    exact ⟨_, rfl, map_holds _ _, map_holds _ _, map_holds _ _, map_holds _ _⟩
  intro a b hs
  unfold responseBareTo Nip47.responseBare
  cases h : Nip47.openResponse E e sk with
  | ub => exact absurd h hd
  | err x => exact ⟨some x, a, b, rfl, rfl, (by intro h; cases h)⟩
  | ok t =>
      simp only [Res.bind_ok]
      refine ⟨none, _, _, rfl, rfl, fun _ => ?_⟩
      rw [map_same hs.1, map_same hs.2.1, map_same hs.2.2.1, map_same hs.2.2.2]

/-- **C208** (notifications, part): from a notification of the wallet with type and text both outputs are set. Missing: notifications
without one of them, `C208_notification_refuted`. -/
theorem C208_notification_partial (E : Nip47.Env) (r : Bytes → Json) (e : Event) (sk type body : Bytes)
    (h : Nip47.parseNotification E r e sk = .ok (some type, some body)) :
    Sets (fun a b : Var × Var => a.1.isSome = b.1.isSome ∧ a.2.isSome = b.2.isSome) Eq (notificationTo E r e sk) ∧
    ∀ o, ∃ o', notificationTo E r e sk o = .ok (none, o') ∧ Holds o.1 o'.1 (some type) ∧ Holds o.2 o'.2 (some body) := by
  refine ⟨?_, fun o => ?_⟩
  rotate_left
  · unfold notificationTo
    rw [h]
    exact ⟨_, rfl, keep_holds _ _, keep_holds _ _⟩
  intro a b hs
  unfold notificationTo
  rw [h]
  refine ⟨_, _, _, rfl, rfl, fun _ => ?_⟩
  rw [keep_some _ hs.1, keep_some _ hs.2]

/-- **C208** fails for notifications that lack the type: the variable keeps what it held. -/
theorem C208_notification_refuted (E : Nip47.Env) (r : Bytes → Json) (e : Event) (sk : Bytes) (body : Option Bytes)
    (h : Nip47.parseNotification E r e sk = .ok (none, body)) :
    ¬ Sets (fun a b : Var × Var => a.1.isSome = b.1.isSome ∧ a.2.isSome = b.2.isSome) Eq (notificationTo E r e sk) := by
  intro hS
  obtain ⟨code, a', b', h1, h2, h3⟩ := hS (some none, none) (some (some (c!"payment_received")), none) ⟨rfl, rfl⟩
  unfold notificationTo at h1 h2
  rw [h] at h1 h2
  cases h1; cases h2
  have := h3 rfl
  cases this

/-- **C208** (payments, part): if the wallet reports the fees, preimage and fees are set. Missing: results without fees, which NIP-47 leaves
to the wallet, `C208_paid_refuted`. -/
theorem C208_paid_partial (real : Bytes → Int) (root : Json) (n : Nat) (p : Bytes) (hg : Good root) (hh : height root ≤ nestingLimit)
    (hn : n < 10 ^ 15) (h1 : get root (c!"preimage") = some (.str p)) (h2 : get root (c!"fees_paid") = some (.num (Num.decNat n))) :
    Sets (fun a b : Var × Option Nat => a.1.isSome = b.1.isSome ∧ a.2.isSome = b.2.isSome) Eq (paidTo real (print false 0 root)) ∧
    ∀ o, ∃ o', paidTo real (print false 0 root) o = .ok (none, o') ∧ Holds o.1 o'.1 (some p) ∧ (o.2.isSome → o'.2 = some n) := by
  refine ⟨?_, fun o => ?_⟩
  rotate_left
  · unfold paidTo
    rw [Nip47.Props.C103_paid_partial hg hh hn h1 h2 false]
    refine ⟨_, rfl, keep_holds _ _, fun h => ?_⟩
    cases ho : o.2 with
    | none => rw [ho] at h; cases h
    | some old => rfl
  intro a b hs
  unfold paidTo
  rw [Nip47.Props.C103_paid_partial hg hh hn h1 h2 false]
  refine ⟨_, _, _, rfl, rfl, fun _ => ?_⟩
  simp only [Option.getD_some]
  rw [keep_some _ hs.1, map_same hs.2]

/-- **C208** fails for results of payments without fees: the call succeeds and the variable for the fees keeps what it held. -/
theorem C208_paid_refuted (real : Bytes → Int) (p : Bytes) (hp : CStr p) :
    (∀ old, paidTo real (print false 0 (.obj [(c!"preimage", .str p)])) (some none, some old) = .ok (none, (some (some p), some old))) ∧
    ¬ Sets (fun a b : Var × Option Nat => a.1.isSome = b.1.isSome ∧ a.2.isSome = b.2.isSome) Eq
      (paidTo real (print false 0 (.obj [(c!"preimage", .str p)]))) := by
  have hparse := parse_print false 0 (.obj [(c!"preimage", .str p)])
    (by simp only [Good, GoodM]; exact ⟨by decide, hp, trivial⟩) (by simp [height, heightM, nestingLimit]) [] (by intro c hc; simp at hc)
  rw [List.append_nil] at hparse
  have hx : Nip47.parsePaid real (print false 0 (.obj [(c!"preimage", .str p)])) = .ok (some p, none) := by
    unfold Nip47.parsePaid
    rw [hparse]
    rfl
  have key : ∀ old, paidTo real (print false 0 (.obj [(c!"preimage", .str p)])) (some none, some old) = .ok (none, (some (some p), some old)) := by
    intro old
    unfold paidTo
    rw [hx]
    rfl
  refine ⟨key, fun hS => ?_⟩
  obtain ⟨code, a', b', h1, h2, h3⟩ := hS (some none, some 1) (some none, some 2) ⟨rfl, rfl⟩
  rw [key] at h1 h2
  cases h1; cases h2
  have := h3 rfl
  cases this

/-- **C208** (balances): the variable is set whenever the call succeeds. -/
theorem C208_balance (real : Bytes → Int) (json : Bytes) (h : Nip47.parseBalance real json ≠ .ub) :
    Sets (fun _ _ : Nat => True) Eq (balanceTo real json) := by
  intro a b _
  unfold balanceTo
  cases hx : Nip47.parseBalance real json with
  | ub => exact absurd hx h
  | err x => exact ⟨some x, a, b, rfl, rfl, (by intro h; cases h)⟩
  | ok n => exact ⟨none, n, n, rfl, rfl, fun _ => rfl⟩

/-- The same outputs are given. -/
def Described.Same (a b : Described) : Prop :=
  a.alias.isSome = b.alias.isSome ∧ a.color.isSome = b.color.isSome ∧ a.pubkey.isSome = b.pubkey.isSome ∧
  a.network.isSome = b.network.isSome ∧ a.height.isSome = b.height.isSome ∧ a.methods.isSome = b.methods.isSome

/-- The document describes a wallet completely: name, colour, key, network, height and methods, as NIP-47 has them. -/
structure Describes (root : Json) (alias color pubkey network : Bytes) (height : Nat) (methods : List Bytes) : Prop where
  alias : get root (c!"alias") = some (.str alias)
  color : get root (c!"color") = some (.str color)
  pubkey : get root (c!"pubkey") = some (.str pubkey)
  network : get root (c!"network") = some (.str network)
  height : get root (c!"block_height") = some (.num (Num.decNat height))
  methods : get root (c!"methods") = some (.arr (methods.map .str))

theorem height_read {json : Bytes} {root : Json} {n : Nat} (hp : parse json = some root) (hn : n < 2 ^ 32)
    (h : get root (c!"block_height") = some (.num (Num.decNat n))) : Double.blockHeight json = .ok (some (n : Int)) := by
  have hi : int64 Double.read (Num.decNat n) = n := by
    have := int64_decInt (n := (n : Int)) Double.read (by omega)
    rwa [show Num.decInt (n : Int) = Num.decNat n by unfold Num.decInt; rw [if_neg (by omega), Int.natAbs_natCast]] at this
  have := ((Double.Props.C191_height hp).2 (Num.decNat n) (by rw [h]; rfl)).1 (by rw [hi]; omega) (by rw [hi]; omega)
  rw [this, hi]

theorem methods_read {root : Json} {ms : List Bytes} (h : get root (c!"methods") = some (.arr (ms.map .str))) :
    Nip47.methodsOf root = some (ms.map some) := by
  unfold Nip47.methodsOf
  rw [h]
  simp only [Option.bind_some, asArr, Option.map_some, List.map_map]
  rfl

/-- **C208** (description of a wallet, part): from a complete description every output is set, to what the document says. Missing:
descriptions that lack a member, `C208_info_refuted`. -/
theorem C208_info_partial {json : Bytes} {root : Json} {alias color pubkey network : Bytes} {n : Nat} {ms : List Bytes}
    (hp : parse json = some root) (hn : n < 2 ^ 32) (hd : Describes root alias color pubkey network n ms) :
    Sets Described.Same Eq (infoTo json) ∧
    ∀ o, ∃ o', infoTo json o = .ok (none, o') ∧ Holds o.alias o'.alias (some alias) ∧ Holds o.color o'.color (some color) ∧
      Holds o.pubkey o'.pubkey (some pubkey) ∧ Holds o.network o'.network (some network) ∧ (o.height.isSome → o'.height = some (n : Int)) ∧
      (o.methods.isSome → o'.methods = some (some (ms.map some))) := by
  have key : ∀ o, infoTo json o = .ok (none, ⟨keep (some alias) o.alias, keep (some color) o.color, keep (some pubkey) o.pubkey,
      keep (some network) o.network, o.height.map fun _ => (n : Int), keep (some (ms.map some)) o.methods⟩) := by
    intro o
    unfold infoTo
    rw [hp]
    simp only []
    rw [height_read hp hn hd.height]
    cases ho : o.height with
    | none => simp [describe, hd.alias, hd.color, hd.pubkey, hd.network, methods_read hd.methods, asStr, ho, Res.bind_ok]
    | some old => simp [describe, hd.alias, hd.color, hd.pubkey, hd.network, methods_read hd.methods, asStr, ho, Res.bind_ok]
  refine ⟨fun a b hs => ?_, fun o => ⟨_, key o, keep_holds _ _, keep_holds _ _, keep_holds _ _, keep_holds _ _, fun h => ?_, fun h => ?_⟩⟩
  · refine ⟨_, _, _, key a, key b, fun _ => ?_⟩
    rw [keep_some _ hs.1, keep_some _ hs.2.1, keep_some _ hs.2.2.1, keep_some _ hs.2.2.2.1, map_same hs.2.2.2.2.1, keep_some _ hs.2.2.2.2.2]
  · cases ho : o.height with
    | none => rw [ho] at h; cases h
    | some old => rfl
  · cases ho : o.methods with
    | none => rw [ho] at h; cases h
    | some old => simp [keep]

/-- **C208** fails for every description that lacks the name, the height or the methods: the call succeeds and the variables keep what
they held. -/
theorem C208_info_refuted {json : Bytes} {root : Json} (hp : parse json = some root) :
    (get root (c!"alias") = none → ∀ old, infoTo json ⟨some old, none, none, none, none, none⟩ =
      .ok (none, ⟨some old, none, none, none, none, none⟩)) ∧
    (get root (c!"block_height") = none → ∀ old, infoTo json ⟨none, none, none, none, some old, none⟩ =
      .ok (none, ⟨none, none, none, none, some old, none⟩)) ∧
    (get root (c!"methods") = none → ∀ old, infoTo json ⟨none, none, none, none, none, some old⟩ =
      .ok (none, ⟨none, none, none, none, none, some old⟩)) ∧
    (get root (c!"alias") = none ∨ get root (c!"block_height") = none ∨ get root (c!"methods") = none →
      ¬ Sets Described.Same Eq (infoTo json)) := by
  have h1 : get root (c!"alias") = none → ∀ old, infoTo json ⟨some old, none, none, none, none, none⟩ =
      .ok (none, ⟨some old, none, none, none, none, none⟩) := by
    intro h old
    unfold infoTo
    rw [hp]
    simp [describe, h, keep, Res.bind_ok]
  have h2 : get root (c!"block_height") = none → ∀ old, infoTo json ⟨none, none, none, none, some old, none⟩ =
      .ok (none, ⟨none, none, none, none, some old, none⟩) := by
    intro h old
    unfold infoTo Double.blockHeight
    rw [hp]
    simp [describe, h, keep, Res.bind_ok]
  have h3 : get root (c!"methods") = none → ∀ old, infoTo json ⟨none, none, none, none, none, some old⟩ =
      .ok (none, ⟨none, none, none, none, none, some old⟩) := by
    intro h old
    unfold infoTo
    rw [hp]
    simp [describe, Nip47.methodsOf, h, keep, Res.bind_ok]
  refine ⟨h1, h2, h3, fun h hS => ?_⟩
  rcases h with h | h | h
  · obtain ⟨code, a', b', e1, e2, e3⟩ := hS ⟨some none, none, none, none, none, none⟩ ⟨some (some []), none, none, none, none, none⟩
      ⟨rfl, rfl, rfl, rfl, rfl, rfl⟩
    rw [h1 h] at e1 e2
    cases e1; cases e2
    cases e3 rfl
  · obtain ⟨code, a', b', e1, e2, e3⟩ := hS ⟨none, none, none, none, some 1, none⟩ ⟨none, none, none, none, some 2, none⟩
      ⟨rfl, rfl, rfl, rfl, rfl, rfl⟩
    rw [h2 h] at e1 e2
    cases e1; cases e2
    cases e3 rfl
  · obtain ⟨code, a', b', e1, e2, e3⟩ := hS ⟨none, none, none, none, none, some none⟩ ⟨none, none, none, none, none, some (some [])⟩
      ⟨rfl, rfl, rfl, rfl, rfl, rfl⟩
    rw [h3 h] at e1 e2
    cases e1; cases e2
    cases e3 rfl

/-- **C208** (description of a wallet without cJSON): every output is set (to fixed values, C193). -/
theorem C208_bare_info : Sets Described.Same Eq infoBareTo := by
  intro a b hs
  refine ⟨_, _, _, rfl, rfl, fun _ => ?_⟩
  rw [map_same hs.1, map_same hs.2.1, map_same hs.2.2.1, map_same hs.2.2.2.1, map_same hs.2.2.2.2.1, map_same hs.2.2.2.2.2]

/-! ## Cases -/

/-- A complete description, and one without name and height, as the hypotheses of `C208_info_partial` and `C208_info_refuted` ask. -/
example : (match parse (c!"{\"alias\":\"w\",\"color\":\"#fff\",\"pubkey\":\"02ab\",\"network\":\"mainnet\",\"block_height\":870000,\"methods\":[\"pay_invoice\"]}") with
    | some root => decide (get root (c!"alias") = some (.str (c!"w")) ∧ get root (c!"color") = some (.str (c!"#fff")) ∧
        get root (c!"pubkey") = some (.str (c!"02ab")) ∧ get root (c!"network") = some (.str (c!"mainnet")) ∧
        get root (c!"block_height") = some (.num (Num.decNat 870000)) ∧ get root (c!"methods") = some (.arr ([c!"pay_invoice"].map .str)))
    | none => false) = true ∧
    (match parse (c!"{\"methods\":[]}") with
    | some root => decide (get root (c!"alias") = none ∧ get root (c!"block_height") = none)
    | none => false) = true := by decide +kernel

/-- A wallet's answer, encrypted with the toy cryptography of C42 for the client with key 5. -/
def answer (doc : Json) : Event :=
  match Nip44.encrypt Nip47.Props.sumNc Nip44.Props.toyB64 none (some (List.replicate 32 1)) (List.replicate 32 7) (List.replicate 32 5) (print false 0 doc) with
  | .ok ct => { zero with pubkey := List.replicate 32 7, kind := 23195, tags := [[c!"encryption", c!"nip44_v2"]], content := some ct }
  | _ => zero

/-- A refusal opens as `C208_response_partial` asks, and an answer with a result as `C208_response_refuted` asks. -/
example : Opens Nip47.Props.sumEnv (answer (errorTree (c!"pay_invoice") (c!"INTERNAL") (c!"no route"))) (List.replicate 32 5)
      (errorTree (c!"pay_invoice") (c!"INTERNAL") (c!"no route")) ∧
    Opens Nip47.Props.sumEnv (answer (replyTree (c!"pay_invoice") (.obj [(c!"preimage", .str (c!"5d"))]))) (List.replicate 32 5)
      (replyTree (c!"pay_invoice") (.obj [(c!"preimage", .str (c!"5d"))])) := by
  unfold Opens; decide +kernel

/-- What the caller sees: the error of an earlier answer beside the new result. -/
example : responseTo Nip47.Props.sumEnv (fun _ => .null) (answer (replyTree (c!"pay_invoice") (.obj [(c!"preimage", .str (c!"5d"))])))
      (List.replicate 32 5) ⟨none, some none, some (some (c!"INTERNAL")), none⟩ =
    .ok (none, ⟨none, some (some (c!"{\"preimage\":\"5d\"}")), some (some (c!"INTERNAL")), none⟩) := by decide +kernel

/-- A wallet's notification, encrypted in the same way. -/
def notice (doc : Json) : Event := { answer doc with kind := 23197 }

/-- The hypotheses of `C208_notification_partial` and `C208_notification_refuted` are met. -/
example : Nip47.parseNotification Nip47.Props.sumEnv (fun _ => .null)
      (notice (.obj [(c!"notification_type", .str (c!"payment_sent")), (c!"notification", .obj [])])) (List.replicate 32 5) =
      .ok (some (c!"payment_sent"), some (c!"{}")) ∧
    Nip47.parseNotification Nip47.Props.sumEnv (fun _ => .null) (notice (.obj [(c!"notification", .obj [])])) (List.replicate 32 5) =
      .ok (none, some (c!"{}")) := by decide +kernel

/-- A payment with fees meets the hypotheses of `C208_paid_partial`. -/
example : ∃ root, Good root ∧ height root ≤ nestingLimit ∧ get root (c!"preimage") = some (.str (c!"5d")) ∧
    get root (c!"fees_paid") = some (.num (Num.decNat 12)) :=
  ⟨.obj [(c!"preimage", .str (c!"5d")), (c!"fees_paid", .num (Num.decNat 12))], by
    simp only [Good, GoodM]
    refine ⟨by decide, by decide, by decide, ?_, trivial⟩
    exact Event.goodNum_decNat (by decide), by decide, rfl, rfl⟩

end Nostr.Outbuf.Props
