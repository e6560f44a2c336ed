import Verif.Zap.Guide
import Verif.Zap.Props
import Verif.Bech32.Props
import Verif.Event.Read
import Verif.Journey.PostProps

/-! # Property theorems: zaps made and checked as the guide shows (C215) -/

namespace Nostr.Zap.Guide.Props
open Nostr Nostr.Event Nostr.Event.Spec Nostr.Zap Nostr.Zap.Spec Nostr.Zap.Guide Nostr.Journey.Spec
open Nostr.Nip10.Props (addTag_ok)
open Nostr.Journey.Post.Props (Ready signed begin_ready cstr_decNat)
open Nostr.Journey.Props (verify_host verify_delivered wf_delivered)

/-! ## Lemmas -/

/-- What one host writes another one reads. -/
theorem read_written (a h : Host) {e : Event} (w : WF e) (ht : e.createdAt.natAbs < 10 ^ 15) (ha : h.Admits e) {t : Bytes} (hj : toJson a.b e = .ok t) :
    fromJson h.P h.b h.cfg t = .ok (delivered e) := by
  obtain ⟨s, h1, h2⟩ := Event.Props.C20_roundtrip_partial h.P h.cfg a.td a.fr w ht ha
  have hj' : toJson (.cjson a.td a.fr) e = .ok t := hj
  rw [h1] at hj'
  cases hj'
  exact h2

theorem written_cstr (a : Host) {e : Event} (w : WF e) (ht : e.createdAt.natAbs < 10 ^ 15) {t : Bytes} (hj : toJson a.b e = .ok t) : CStr t := by
  obtain ⟨g, -⟩ := good_toTree (td := a.td) (fr := a.fr) w ht
  simp only [toJson, Host.b, Res.ok.injEq] at hj
  rw [← hj]
  exact Json.print_cstr true 0 _ g

/-- The request is well formed and is the one asked for. -/
theorem request_ok {C : Crypto} (hC : Event.Props.CryptoOK C) (hS : Gift.Spec.Sizes C) {h : Host} {rand : Option Bytes} {now : Int} {sk npub lnurl message : Bytes}
    {least most amount : Nat} {q : Event} (hs : sendZap C h rand now sk least most npub amount lnurl message = .ok q) (hu : CStr lnurl) (hm : CStr message)
    (ht : now.natAbs < 10 ^ 15) :
    ∃ r, Bech32.keyFromBech32 npub = .ok r ∧ least ≤ amount ∧ amount ≤ most ∧ WF q ∧ C.pubOf sk = some q.pubkey ∧ q.kind = 9734 ∧ q.createdAt = now ∧
      q.text = message ∧ verify C h.b q = .ok () ∧
      q.tags = [c!"relays" :: relays, [c!"amount", Num.decNat amount], [c!"lnurl", lnurl], [c!"p", Hex.Spec.hexText r]] := by
  unfold sendZap at hs
  obtain ⟨r, h1, hs⟩ := Res.bind_eq_ok.1 hs
  by_cases hr : amount < least ∨ amount > most
  · rw [if_pos hr] at hs; simp at hs
  rw [if_neg hr] at hs
  obtain ⟨x, h2, hs⟩ := Res.bind_eq_ok.1 hs
  obtain ⟨g1, g2, g3, -, g4, -⟩ := Zap.Props.C114_request_partial _ _ _ _ _ _ _ _ h2
  have hready : Ready x := begin_ready (D := ⟨h, C, Nip47.Props.sumNc, Base64.codec⟩) Gift.Props.codec_standard (now := now)
    (s := .zap amount r (some lnurl) (some message) relays)
    ⟨fun t e => by cases e; exact hu, fun t e => by cases e; exact hm, by decide⟩ h2
  obtain ⟨hv, -, hsame⟩ := Event.Props.C19_signed_verifies hC hs
  have htime : q.createdAt = now := hsame.2.1.trans g2
  obtain ⟨k1, k2, k3, k4, k5, k6⟩ := signed hC hS hready hs (by rw [htime]; exact ht)
  refine ⟨r, h1, by omega, by omega, k1, k2, k4.trans g1, htime, ?_, hv, ?_⟩
  · exact hsame.2.2.2.2.trans g3
  · rw [k5, g4]; rfl

/-- The receipt is well formed and says what was given. -/
theorem receipt_ok {C : Crypto} (hC : Event.Props.CryptoOK C) (hS : Gift.Spec.Sizes C) {h : Host} {rand : Option Bytes} {now : Int}
    {sk who bolt11 preimage text : Bytes} {e : Event} (hg : giveReceipt C h rand now sk who bolt11 preimage text = .ok e) (h1 : CStr who) (h2 : CStr bolt11)
    (h3 : CStr preimage) (h4 : CStr text) (ht : now.natAbs < 10 ^ 15) :
    WF e ∧ C.pubOf sk = some e.pubkey ∧ e.kind = 9735 ∧ e.createdAt = now ∧ verify C h.b e = .ok () ∧
      e.tags = [[c!"p", who], [c!"bolt11", bolt11], [c!"preimage", preimage], [c!"description", text]] := by
  unfold giveReceipt at hg
  obtain ⟨_, -, hg⟩ := Res.bind_eq_ok.1 hg
  obtain ⟨e1, a1, hg⟩ := Res.bind_eq_ok.1 hg
  obtain ⟨e2, a2, hg⟩ := Res.bind_eq_ok.1 hg
  obtain ⟨e3, a3, hg⟩ := Res.bind_eq_ok.1 hg
  obtain ⟨e4, a4, hg⟩ := Res.bind_eq_ok.1 hg
  have b1 := addTag_ok a1
  have b2 := addTag_ok a2
  have b3 := addTag_ok a3
  have b4 := addTag_ok a4
  have he : e4 = { zero with createdAt := now, kind := 9735, tags := [[c!"p", who], [c!"bolt11", bolt11], [c!"preimage", preimage], [c!"description", text]] } := by
    rw [b4, b3, b2, b1]; rfl
  have hready : Ready e4 := by
    rw [he]
    refine ⟨by show 9735 < 65536; omega, fun t ht => ?_, by show CStr []; decide⟩
    simp only [List.mem_cons, List.not_mem_nil, or_false] at ht
    rcases ht with rfl | rfl | rfl | rfl <;> refine ⟨by simp, fun v hv => ?_⟩ <;> simp only [List.mem_cons, List.not_mem_nil, or_false] at hv <;>
      rcases hv with rfl | rfl <;> first | assumption | decide
  obtain ⟨hv, -, hsame⟩ := Event.Props.C19_signed_verifies hC hg
  have htime : e.createdAt = now := by rw [hsame.2.1, he]
  obtain ⟨k1, k2, k3, k4, k5, k6⟩ := signed hC hS hready hg (by rw [htime]; exact ht)
  exact ⟨k1, k2, by rw [k4, he], htime, hv, by rw [k5, he]⟩

theorem parse_four {P : Plat} {b : Build} {cfg : Option Config.Config} {e q : Event} {who bolt11 preimage text : Bytes} (hk : e.kind = 9735)
    (ht : e.tags = [[c!"p", who], [c!"bolt11", bolt11], [c!"preimage", preimage], [c!"description", text]]) (hl : preimage.length ≤ 64)
    (hq : fromJson P b cfg text = .ok q) :
    parseReceipt P b cfg e = .ok (⟨some bolt11, some preimage, some q⟩, amountOf bolt11) := by
  unfold parseReceipt
  rw [if_neg (by simp [hk]), ht]
  have n1 : (c!"p" = c!"bolt11") = False := by decide
  have n2 : (c!"p" = c!"preimage") = False := by decide
  have n3 : (c!"p" = c!"description") = False := by decide
  have n4 : (c!"preimage" = c!"bolt11") = False := by decide
  have n5 : (c!"description" = c!"bolt11") = False := by decide
  have n6 : (c!"description" = c!"preimage") = False := by decide
  simp only [scanTags, n1, n2, n3, n4, n5, n6, if_true, if_false, hl, hq, Res.bind_ok]
  rfl

/-! ## C215 -/

/-- C215, zaps that are made as the guide shows are recognised: the sender's request, written by one host, acknowledged by a server on another host with an
invoice over the amount, and read again by the sender: the receipt has the server's signature, `nostr_zap_verify` accepts it for the request, and
the guide's program prints the amount, the invoice and the preimage. (Partial: times below 10^15, invoices with a letter for the unit.) -/
theorem C215_round_partial {C : Crypto} (hC : Event.Props.CryptoOK C) (hS : Gift.Spec.Sizes C) {client server : Host} {rand rand' : Option Bytes}
    {now now' : Int} {sk ssk npub lnurl message who bolt11 preimage text json : Bytes} {least most amount : Nat} {q e : Event}
    (hs : sendZap C client rand now sk least most npub amount lnurl message = .ok q) (hu : CStr lnurl) (hm : CStr message) (ha : amount < 2 ^ 64)
    (ht : now.natAbs < 10 ^ 15) (hj : toJson client.b q = .ok text)
    (hg : giveReceipt C server rand' now' ssk who bolt11 preimage text = .ok e) (hw : CStr who) (hb : CStr bolt11) (hp : CStr preimage)
    (hl : preimage.length ≤ 64) (ht' : now'.natAbs < 10 ^ 15) (hj' : toJson server.b e = .ok json) (hq : client.Admits q) (he : client.Admits e)
    {n : Nat} {u : Unit'} {data : Bytes} (hv : bolt11 = c!"lnbc" ++ Num.decNat n ++ [u.letter] ++ c!"1" ++ data) (hn : n * u.tenths = amount * 10)
    (hn' : n < 2 ^ 64) :
    ∃ got, fromJson client.P client.b client.cfg json = .ok got ∧ C.pubOf ssk = some got.pubkey ∧ verify C client.b got = .ok () ∧
      verifyZap C client.P client.b client.cfg got q (Hex.Spec.hexText got.pubkey) = .ok () ∧
      verifyReceipt client json = .ok ⟨amount, bolt11, preimage⟩ ∧
      checkReceipt C client q (Hex.Spec.hexText got.pubkey) json = .ok ⟨amount, bolt11, preimage⟩ := by
  obtain ⟨r, -, -, -, q1, q2, q3, q4, -, -, q5⟩ := request_ok hC hS hs hu hm ht
  have htext := written_cstr client q1 (by rw [q4]; exact ht) hj
  obtain ⟨e1, e2, e3, e4, e5, e6⟩ := receipt_ok hC hS hg hw hb hp htext ht'
  have hte : e.createdAt.natAbs < 10 ^ 15 := by rw [e4]; exact ht'
  have hread := read_written server client e1 hte he hj'
  have hreq := read_written client client q1 (by rw [q4]; exact ht) hq hj
  have hver : verify C client.b (delivered e) = .ok () := (verify_delivered C client.b e).2 (by rw [verify_host client server e1 hte]; exact e5)
  have hparse := parse_four (e := delivered e) e3 e6 hl hreq
  have hlast : LastTag (delivered e) (c!"bolt11") bolt11 :=
    ⟨[[c!"p", who]], [], [[c!"preimage", preimage], [c!"description", text]], e6, fun t ht w r e => by
      simp only [List.mem_cons, List.not_mem_nil, or_false] at ht
      rcases ht with rfl | rfl <;> simp only [List.cons.injEq] at e <;> exact absurd e.1 (by decide)⟩
  have hamount := (Zap.Props.C69_amount_partial _ _ _ _ _ _ _ _ _ hv hn hn' ha hlast _ _ hparse).1
  have hzap : verifyZap C client.P client.b client.cfg (delivered e) q (Hex.Spec.hexText (delivered e).pubkey) = .ok () := by
    refine Zap.Props.C68_accepts C _ _ _ (delivered e) q e1.pubkey e3 q3 hver (fun v rest hv => ?_) text (delivered q) ?_ hreq rfl (.inr (.inr ?_))
    · have hv' : (c!"description" :: v :: rest) ∈ e.tags := hv
      rw [e6] at hv'
      simp only [List.mem_cons, List.not_mem_nil, or_false, List.cons.injEq] at hv'
      rcases hv' with h | h | h | h
      · exact absurd h.1 (by decide)
      · exact absurd h.1 (by decide)
      · exact absurd h.1 (by decide)
      · rw [h.2.1]; exact ⟨_, hreq⟩
    · exact ⟨[[c!"p", who], [c!"bolt11", bolt11], [c!"preimage", preimage]], [], [], e6, by simp⟩
    · refine ⟨n, u, data, amount, bolt11, hlast, hv, hn, hn', ha, [c!"relays" :: relays], [], _, q5, fun t ht w r e => ?_⟩
      rw [List.mem_singleton] at ht
      rw [ht] at e
      simp only [List.cons.injEq] at e
      exact absurd e.1 (by decide)
  have hprint : printReceipt client (delivered e) = .ok ⟨amount, bolt11, preimage⟩ := by
    unfold printReceipt
    rw [hparse, Res.bind_ok]
    simp only [hamount, Option.getD_some]
  refine ⟨delivered e, hread, e2, hver, hzap, ?_, ?_⟩
  · unfold verifyReceipt
    rw [hread, Res.bind_ok, hprint]
  · unfold checkReceipt
    rw [hread, Res.bind_ok, hzap, Res.bind_ok, hprint]

/-- C215 fails for receipts nobody has signed: whatever the program prints for a receipt, it prints the same when id, author and signature are replaced by
anything at all. -/
theorem C215_forged_refuted (C : Crypto) (a h : Host) {e : Event} (w : WF e) (ht : e.createdAt.natAbs < 10 ^ 15) (ha : h.Admits e) {json : Bytes}
    (hj : toJson a.b e = .ok json) {out : Printed} (ho : verifyReceipt h json = .ok out) {id pk sig : Bytes} (h1 : id.length = 32) (h2 : pk.length = 32)
    (h3 : sig.length = 64) :
    ∃ forged, toJson a.b { e with id := id, pubkey := pk, sig := sig } = .ok forged ∧ verifyReceipt h forged = .ok out ∧
      (C.verify pk id sig = false → ∀ got, fromJson h.P h.b h.cfg forged = .ok got → verify C h.b got ≠ .ok ()) := by
  have w' : WF { e with id := id, pubkey := pk, sig := sig } := ⟨h1, h2, h3, w.time, w.kind, w.tags, w.content⟩
  have ha' : h.Admits { e with id := id, pubkey := pk, sig := sig } := ha
  have r1 := read_written a h w ht ha hj
  refine ⟨_, rfl, ?_, fun hf got hgot => ?_⟩
  · have r2 := read_written a h w' ht ha' (t := Json.print true 0 (toTree a.td a.fr { e with id := id, pubkey := pk, sig := sig })) rfl
    unfold verifyReceipt at ho ⊢
    rw [r1, Res.bind_ok] at ho
    rw [r2, Res.bind_ok]
    exact ho
  · rw [read_written a h w' ht ha' rfl] at hgot
    cases hgot
    unfold verify
    intro hv
    obtain ⟨t, -, hv⟩ := Res.bind_eq_ok.1 hv
    split at hv
    · simp at hv
    · split at hv
      · simp at hv
      · simp [delivered, hf] at hv

/-- What the program prints when the receipt has no invoice: it prints a text that is not there. -/
theorem C215_no_invoice {h : Host} {json : Bytes} {e : Event} (hr : fromJson h.P h.b h.cfg json = .ok e) (hk : e.kind = 9735)
    (hall : ∀ v rest, (c!"description" :: v :: rest) ∈ e.tags → ∃ q, fromJson h.P h.b h.cfg v = .ok q)
    (hn : ∀ t ∈ e.tags, ∀ w r, t ≠ c!"bolt11" :: w :: r) : verifyReceipt h json = .ub := by
  obtain ⟨r, hscan⟩ := Zap.Props.scan_ok h.P h.b h.cfg e.tags ⟨none, none, none⟩ hall
  obtain ⟨s1, -⟩ := Zap.Props.scan_spec _ _ _ _ _ _ hscan
  unfold verifyReceipt
  rw [hr, Res.bind_ok]
  unfold printReceipt parseReceipt
  rw [if_neg (by simp [hk]), hscan]
  simp only [Res.bind_ok]
  rcases s1 with ⟨g, -⟩ | ⟨before, v, rest, after, g1, -, -⟩
  · rw [g]
  · exact absurd rfl (hn (c!"bolt11" :: v :: rest) (by rw [g1]; simp) v rest)

/-- With `nostr_zap_verify` in front, what is printed is right: the receipt is signed by the server that was asked, for this request, and the amount printed is
the amount of the request when both are stated. -/
theorem C215_checked {C : Crypto} (hC : Event.Props.CryptoOK C) {h : Host} {request : Event} (hq : request.id.length = 32) {server json : Bytes} {out : Printed}
    (ho : checkReceipt C h request server json = .ok out) :
    ∃ e, fromJson h.P h.b h.cfg json = .ok e ∧ e.kind = 9735 ∧ server = Hex.Spec.hexText e.pubkey ∧ C.verify e.pubkey e.id e.sig = true ∧
      (∃ t, serialize h.b e = .ok t ∧ e.id = C.sha256 t) ∧ LastTag e (c!"bolt11") out.invoice ∧
      (∃ d q, LastTag e (c!"description") d ∧ fromJson h.P h.b h.cfg d = .ok q ∧ q.id = request.id) ∧
      (∀ m, FirstTag request (c!"amount") (Num.decNat m) → m < 2 ^ 64 → 0 < m → 0 < out.amount → out.amount = m) := by
  unfold checkReceipt at ho
  obtain ⟨e, h1, ho⟩ := Res.bind_eq_ok.1 ho
  obtain ⟨_, h2, ho⟩ := Res.bind_eq_ok.1 ho
  obtain ⟨⟨l1, l2, -, -⟩, -⟩ := Event.Props.C116_lengths _ _ _ _ _ h1
  obtain ⟨s1, -, s3, s4, s5, s6, -⟩ := Zap.Props.C68_sound C hC _ _ _ e request server l1 l2 hq h2
  unfold printReceipt at ho
  obtain ⟨r, h3, ho⟩ := Res.bind_eq_ok.1 ho
  cases hb : r.1.bolt11 with
  | none => rw [hb] at ho; simp at ho
  | some v =>
      rw [hb] at ho
      simp only [Res.ok.injEq] at ho
      subst ho
      refine ⟨e, h1, s1, s3, s5, s4, ?_, s6, fun m hm m1 m2 m3 => ?_⟩
      · have h4 := h3
        unfold parseReceipt at h4
        rw [if_neg (by simp [s1])] at h4
        obtain ⟨r', h5, h4⟩ := Res.bind_eq_ok.1 h4
        simp only [Res.ok.injEq] at h4
        subst h4
        rcases (Zap.Props.scan_spec _ _ _ _ _ _ h5).1 with ⟨g, -⟩ | ⟨before, v', rest, after, g1, g2, g3⟩
        · rw [g] at hb; simp at hb
        · rw [g2] at hb
          cases hb
          exact ⟨before, rest, after, g1, g3⟩
      · unfold verifyZap at h2
        rw [if_neg] at h2
        · obtain ⟨hex, -, h2⟩ := Res.bind_eq_ok.1 h2
          split at h2
          · simp at h2
          · rw [h3, Res.bind_ok] at h2
            cases hq' : r.1.request with
            | none => rw [hq'] at h2; simp at h2
            | some q =>
                rw [hq'] at h2
                simp only [] at h2
                split at h2
                · simp at h2
                · split at h2
                  · simp at h2
                  · rename_i hne
                    obtain ⟨before, rest, after, f1, f2⟩ := hm
                    have hwant : requestAmount request.tags = m := by
                      rw [f1, Zap.Props.requestAmount_of _ _ _ _ f2, Zap.Props.amount_dec m1]
                    have m3' : 0 < r.2.getD 0 := m3
                    rw [hwant] at hne
                    show r.2.getD 0 = m
                    by_cases heq : m = r.2.getD 0
                    · exact heq.symm
                    · exact absurd ⟨m2, m3', heq⟩ hne
        · intro hc
          rw [if_pos hc] at h2
          simp at h2

/-- C215 fails for the recipient: given a secret key instead of a public one (`nsec1…`), the program does not refuse it but writes the secret key into the
request, which goes to the payment server and the relays. -/
theorem C215_secret_refuted {C : Crypto} (hC : Event.Props.CryptoOK C) (hS : Gift.Spec.Sizes C) (secret : Bytes) (hl : secret.length = 32) :
    ∃ nsec, Bech32.privkeyToBech32 secret 64 = .ok nsec ∧
      ∀ (h : Host) (rand : Option Bytes) (now : Int) (sk : Bytes) (least most amount : Nat) (lnurl message : Bytes) (q : Event),
        CStr lnurl → CStr message → now.natAbs < 10 ^ 15 → sendZap C h rand now sk least most nsec amount lnurl message = .ok q →
        [c!"p", Hex.Spec.hexText secret] ∈ q.tags := by
  obtain ⟨s, h1, -, -, h2⟩ := Bech32.Props.C01_key_roundtrip secret (c!"nsec") 64 hl (by decide) (by decide) (by decide)
  refine ⟨s, ?_, fun h rand now sk least most amount lnurl message q hu hm ht hs => ?_⟩
  · unfold Bech32.keyToBech32 at h1
    rw [if_neg (by decide)] at h1
    unfold Bech32.privkeyToBech32
    rw [if_neg (by omega)]
    exact h1
  · obtain ⟨r, g1, -, -, -, -, -, -, -, -, g2⟩ := request_ok hC hS hs hu hm ht
    rw [h2] at g1
    cases g1
    rw [g2]
    simp

/-! ## Cases -/

/-- The value of a call that succeeds. -/
def got {α : Type} (d : α) : Res α → α
  | .ok x => x
  | _ => d

/-- The hosts of the cases, with the default limits. -/
def home : Host := Journey.Mail.Props.std

/-- The text of the recipient's key. -/
def npub : Bytes := got [] (Bech32.keyToBech32 (List.replicate 32 3) (c!"npub") 100)

/-- The request of the guide: 21000 millisatoshi. -/
def ask (to_ : Bytes) : Res Event :=
  sendZap Gift.Props.sized home (some []) 1700000000 (List.replicate 32 1) 1000 10000000 to_ 21000 (c!"lnurl1x") (c!"Great post!")

def request : Event := got zero (ask npub)

def requestText : Bytes := got [] (toJson home.b request)

/-- The receipt of the server with key `2…2`. -/
def acknowledge : Res Event :=
  giveReceipt Gift.Props.sized home (some []) 1700000001 (List.replicate 32 2) (c!"03") (c!"lnbc210n1pdata") (c!"00ff") requestText

def receipt : Event := got zero acknowledge

def receiptText : Bytes := got [] (toJson home.b receipt)

theorem ask_ok : ask npub = .ok request := by decide +kernel
theorem ack_ok : acknowledge = .ok receipt := by decide +kernel
theorem admits : home.Admits request ∧ home.Admits receipt := by
  constructor <;> intro c hc <;> cases hc <;> decide +kernel

/-- The hypotheses of `C215_round_partial` can be met. -/
example : verifyReceipt home receiptText = .ok ⟨21000, c!"lnbc210n1pdata", c!"00ff"⟩ ∧
    checkReceipt Gift.Props.sized home request (Hex.Spec.hexText (List.replicate 32 2)) receiptText = .ok ⟨21000, c!"lnbc210n1pdata", c!"00ff"⟩ := by
  obtain ⟨x, h1, h2, -, -, h3, h4⟩ := C215_round_partial (u := .nano) (n := 210) (data := c!"pdata") Gift.Props.sized_ok Gift.Props.sized_sizes ask_ok (by decide) (by decide)
    (by decide) (by decide) (text := requestText) rfl ack_ok (by decide) (by decide) (by decide) (by decide) (by decide) (json := receiptText) rfl
    admits.1 admits.2 (by decide +kernel) (by decide) (by decide)
  have h5 : x.pubkey = List.replicate 32 2 := by
    have : some (List.replicate 32 2) = some x.pubkey := h2
    exact (Option.some.inj this).symm
  rw [h5] at h4
  exact ⟨h3, h4⟩

/-- `C215_forged_refuted` in a case: the receipt with an author and a signature of zeros. -/
example : ∃ forged, verifyReceipt home forged = .ok ⟨21000, c!"lnbc210n1pdata", c!"00ff"⟩ ∧
    ∀ e, fromJson home.P home.b home.cfg forged = .ok e → verify Gift.Props.sized home.b e ≠ .ok () := by
  have w : WF receipt := (receipt_ok Gift.Props.sized_ok Gift.Props.sized_sizes ack_ok (by decide) (by decide) (by decide) (by decide +kernel) (by decide)).1
  obtain ⟨f, -, h2, h3⟩ := C215_forged_refuted Gift.Props.sized home home (id := List.replicate 32 1) (pk := List.replicate 32 0) (sig := List.replicate 64 0) w
    (by decide +kernel) admits.2 (json := receiptText) rfl (out := ⟨21000, c!"lnbc210n1pdata", c!"00ff"⟩) (by decide +kernel) (by decide) (by decide) (by decide)
  exact ⟨f, h2, h3 (by decide +kernel)⟩

/-- C215 fails for a receipt without an invoice: `nostr_zap_verify` accepts it, and the program prints a text that is not there. -/
theorem C215_no_invoice_refuted : ∃ (e : Event) (json : Bytes), toJson home.b e = .ok json ∧ fromJson home.P home.b home.cfg json = .ok e ∧
    verifyZap Gift.Props.sized home.P home.b home.cfg e request (Hex.Spec.hexText (List.replicate 32 2)) = .ok () ∧ verifyReceipt home json = .ub := by
  refine ⟨got zero (sign Gift.Props.sized home.b (some []) (List.replicate 32 2) { zero with kind := 9735, content := some [], tags := [[c!"description", requestText]] }), _, rfl, ?_, ?_, ?_⟩
  · decide +kernel
  · decide +kernel
  · decide +kernel

/-- `C215_secret_refuted` in a case: the request is made although the recipient is a secret key. -/
example : ∃ q, ask (got [] (Bech32.privkeyToBech32 (List.replicate 32 3) 64)) = .ok q ∧ [c!"p", Hex.Spec.hexText (List.replicate 32 3)] ∈ q.tags :=
  ⟨got zero (ask (got [] (Bech32.privkeyToBech32 (List.replicate 32 3) 64))), by decide +kernel, by decide +kernel⟩

end Nostr.Zap.Guide.Props
