import Verif.Zap.Model
import Verif.Zap.Spec
import Verif.Bech32.Model
import Verif.Journey.Spec

/-! # The programs of docs/INTEGRATION.md

The guide shows how an application sends a zap and how it checks a receipt. The programs are modelled as they are printed there; what they take from
elsewhere (the answer of the payment server, the keys of the sender) is a parameter. The guide leaves the making of a receipt to the reader
("Zap receipt generation implemented", line 529); it is made as NIP-57 describes. -/

namespace Nostr.Zap.Guide
open Nostr Nostr.Event Nostr.Zap Nostr.Journey.Spec

/-- docs/INTEGRATION.md:76-79: the relays of the example. -/
def relays : List Bytes := [c!"wss://relay.damus.io", c!"wss://nostr.band"]

/-- docs/INTEGRATION.md:45-99 `send_zap`, up to the signed request; every failure is -1 there, here the error of the call or `invalidParam`.
`least` and `most` are what the payment server allows (lines 66-67), `sk` the key of the sender (line 92), `rand` the random bytes of the signature.
Memory and the network are left out. -/
def sendZap (C : Crypto) (h : Host) (rand : Option Bytes) (now : Int) (sk : Bytes) (least most : Nat) (npub : Bytes) (amount : Nat)
    (lnurl message : Bytes) : Res Event :=
  Bech32.keyFromBech32 npub >>= fun recipient =>
  if amount < least ∨ amount > most then .err .invalidParam
  else createRequest h.cfg now amount recipient (some lnurl) (some message) relays >>= fun e => sign C h.b rand sk e

/-- The server's part: docs/INTEGRATION.md:385-389 reads the request; the receipt is an event with the recipient, the invoice, the preimage and the text
that was read (NIP-57), signed by the server. -/
def giveReceipt (C : Crypto) (h : Host) (rand : Option Bytes) (now : Int) (sk who bolt11 preimage text : Bytes) : Res Event :=
  fromJson h.P h.b h.cfg text >>= fun _ =>
  addTag h.cfg { zero with createdAt := now, kind := 9735 } [c!"p", who] >>= fun e1 =>
  addTag h.cfg e1 [c!"bolt11", bolt11] >>= fun e2 =>
  addTag h.cfg e2 [c!"preimage", preimage] >>= fun e3 =>
  addTag h.cfg e3 [c!"description", text] >>= fun e4 => sign C h.b rand sk e4

/-- What the checking program prints after "Zap verified!" (of the invoice at most 50 characters, which is left out). -/
structure Printed where
  amount : Nat
  invoice : Bytes
  preimage : Bytes
  deriving DecidableEq, Repr

/-- docs/INTEGRATION.md:133-146: the outputs start as 0, NULL and the empty text; printing NULL as a text is undefined. -/
def printReceipt (h : Host) (e : Event) : Res Printed :=
  parseReceipt h.P h.b h.cfg e >>= fun r =>
  match r.1.bolt11 with
  | none => .ub
  | some v => .ok ⟨r.2.getD 0, v, r.1.preimage.getD []⟩

/-- docs/INTEGRATION.md:126-154 `verify_zap_receipt`; its second argument `expected_amount` is not used there. -/
def verifyReceipt (h : Host) (json : Bytes) : Res Printed := fromJson h.P h.b h.cfg json >>= fun e => printReceipt h e

/-- Not in the guide: the same program with a call of `nostr_zap_verify` before the receipt is taken apart. -/
def checkReceipt (C : Crypto) (h : Host) (request : Event) (server json : Bytes) : Res Printed :=
  fromJson h.P h.b h.cfg json >>= fun e => verifyZap C h.P h.b h.cfg e request server >>= fun _ => printReceipt h e

end Nostr.Zap.Guide
