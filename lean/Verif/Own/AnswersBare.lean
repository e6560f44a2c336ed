import Verif.Own.Answers
import Verif.Nip47.Bare

/-!
# Memory of the answers of a wallet in the build without cJSON (src/nip47.c, src/nip47_commands.c)

Simplified as `Verif/Own/Answers.lean`: the memory inside the decryption is one block.
-/

namespace Nostr.Own.Answers
open Nostr Nostr.Heap Nostr.Nip47

/-- nip47.c:648-651: two copies, and NULL for the error. -/
def replyBare (A : Alloc) (o : Outs) : M (Option Err × Outs) :=
  M.bind (dup A (some (c!"unknown")) o.type) fun a =>
  M.bind (dup A (some (c!"{}")) o.result) fun b =>
  M.pure (none, ⟨a, b, o.code.map fun _ => none, o.message.map fun _ => none⟩)

/-- nip47.c:556-656 `nostr_nip47_parse_response_event` without cJSON. -/
def parseResponseBare (A : Alloc) (E : Nip47.Env) (e : Event.Event) (sk : Bytes) (o : Outs) : M (Option Err × Outs) :=
  match openResponse E e sk with
  | .ub => fun _ => none
  | .err x => M.pure (some x, o)
  | .ok d => opened A d (fun _ => replyBare A o) (some .memory, o)

/-- nip47.c:838-839. -/
def noteBare (A : Alloc) (o : Var × Var) : M (Option Err × Var × Var) :=
  M.bind (dup A (some (c!"unknown")) o.1) fun a => M.bind (dup A (some (c!"{}")) o.2) fun b => M.pure (none, a, b)

/-- nip47.c:786-844 `nostr_nip47_parse_notification_event` without cJSON. -/
def parseNotificationBare (A : Alloc) (E : Nip47.Env) (e : Event.Event) (sk : Bytes) (o : Var × Var) : M (Option Err × Var × Var) :=
  match openNotification E e sk with
  | .ub => fun _ => none
  | .err x => M.pure (some x, o)
  | .ok d => opened A d (fun _ => noteBare A o) (some .memory, o)

/-- nip47_commands.c:414-439: the preimage is copied byte by byte into a block of its length and one; the variable gets NULL if there is no
such block. -/
def parsePaidBare (A : Alloc) (json : Bytes) (o : Var) : M (Option Err × Var × Option Nat) :=
  M.bind (dup A (preimageBare json) o) fun p => M.pure (none, p, feesBare json)

/-- nip47_commands.c:510-519, without the block height. -/
def parseInfoBare (A : Alloc) (o : InfoOuts) : M (Option Err × InfoOuts) :=
  M.bind (dup A (some (c!"wallet")) o.alias) fun a =>
  M.bind (dup A (some (c!"#000000")) o.color) fun b =>
  M.bind (dup A (some (List.replicate 64 0x30)) o.pubkey) fun c =>
  M.bind (dup A (some (c!"mainnet")) o.network) fun d =>
  M.pure (none, ⟨a, b, c, d, o.methods.map fun _ => (none, 0)⟩)

end Nostr.Own.Answers
