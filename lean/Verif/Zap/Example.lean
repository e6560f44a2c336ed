import Verif.Zap.Guide

/-! # The program examples/zap_example.c

What the program takes from elsewhere (the key it generates, the clock, the random bytes) is a parameter. Memory allocation succeeds. -/

namespace Nostr.Zap.Example
open Nostr Nostr.Event Nostr.Zap Nostr.Journey.Spec

/-- examples/zap_example.c:41: the first relay. -/
def damus : Bytes := c!"wss://relay.damus.io"

/-- examples/zap_example.c:44-52: the options, with the message and the relays so far. Where the table of ten relays is full, the value of a `-r` is not skipped and
is looked at as an option itself. -/
def options : List Bytes → Option Bytes → List Bytes → Option Bytes × List Bytes
  | [], m, rs => (m, rs)
  | [_], m, rs => (m, rs)
  | a :: v :: rest, m, rs =>
      if a = c!"-m" then options rest (some v) rs
      else if a = c!"-r" then (if rs.length < 10 then options rest m (rs ++ [v]) else options (v :: rest) m rs)
      else options (v :: rest) m rs

/-- examples/zap_example.c:37-98: the request and the JSON printed. -/
def create (C : Crypto) (h : Host) (rand : Option Bytes) (now : Int) (sk amount npub lnurl : Bytes) (opts : List Bytes) : Res (Event × Bytes) :=
  Bech32.keyFromBech32 npub >>= fun recipient =>
  createRequest h.cfg now (Num.strtoul amount).1 recipient (some lnurl) (options opts none [damus]).1 (options opts none [damus]).2 >>= fun e =>
  sign C h.b rand sk e >>= fun q => toJson h.b q >>= fun j => .ok (q, j)

/-- What `verify` prints: whether "Zap receipt is valid!" (line 133), the amount and the invoice (lines 139-145; of the invoice at most 50 characters, which is
left out). -/
structure Verdict where
  valid : Bool
  amount : Option Nat
  invoice : Option Bytes
  deriving DecidableEq, Repr

/-- examples/zap_example.c:109-151: the verdict, if both texts can be read, and the exit status. A receipt that cannot be taken apart leaves 0 and NULL. -/
def check (C : Crypto) (h : Host) (receipt request server : Bytes) : Res (Option Verdict × Nat) :=
  match fromJson h.P h.b h.cfg receipt with
  | .ub => .ub
  | .err _ => .ok (none, 1)
  | .ok e => match fromJson h.P h.b h.cfg request with
      | .ub => .ub
      | .err _ => .ok (none, 1)
      | .ok q => match verifyZap C h.P h.b h.cfg e q server with
          | .ub => .ub
          | .err _ => .ok (some ⟨false, none, none⟩, 0)
          | .ok _ => match parseReceipt h.P h.b h.cfg e with
              | .ub => .ub
              | .err _ => .ok (some ⟨true, none, none⟩, 0)
              | .ok r => .ok (some ⟨true, r.2.filter (0 < ·), r.1.bolt11⟩, 0)

end Nostr.Zap.Example
