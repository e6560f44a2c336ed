import Verif.Own.Tree
import Verif.Nip46.Model

/-!
# Memory of the text of a signer's response

nip46.c:82-104 builds an object with the identifier and the outcome and prints it; the calls of cJSON are those of `Verif/Own/Tree.lean`.
-/

namespace Nostr.Own.Response
open Nostr Nostr.Heap Nostr.Json Nostr.Own.Tree

/-- nip46.c:89-97: the outcome is added to the object with the blocks `cs`; the new blocks and the members added. A result that is JSON
is added as such (`cJSON_AddItemToObject`, which does not delete what it cannot add), otherwise as a string. Simplified: what
`cJSON_Parse` makes of the result is one block. `r` tells what numbers become that cJSON stores as `double`. -/
def outcome (A : Alloc) (r : Bytes → Json) (cs : List Nat) (p : Nip46.Response) : M (List Nat × List (Bytes × Json)) :=
  let text (k s : Bytes) : M (List Nat × List (Bytes × Json)) :=
    M.bind (members A never (some cs) [(k, .str s)]) fun q => M.pure (q.2.1.getD [], q.2.2)
  match p.error, p.result with
  | some t, _ => text (c!"error") t
  | none, none => M.pure (cs, [])
  | none, some t =>
    match parse t with
    | none => text (c!"result") t
    | some j => M.bind (alloc A (.str t)) fun o =>
      match o with
      | none => text (c!"result") t
      | some o => M.bind (alloc A (.str (c!"result"))) fun k =>
        match k with
        | none => M.pure (cs, [])
        | some k => M.pure (cs ++ [k, o], [(c!"result", mapNum r j)])

/-- nip46.c:82-104: the text of a response, or NULL. -/
def content (A : Alloc) (g : Bytes → Nat) (r : Bytes → Json) (p : Nip46.Response) : M (Option Nat) :=
  M.bind (create A) fun n =>
  match n with
  | none => M.pure none
  | some n =>
    M.bind (members A never (some [n]) [(c!"id", .str p.id)]) fun i =>
    M.bind (outcome A r (i.2.1.getD []) p) fun o =>
    M.bind (Tree.print A g false (some (.obj (i.2.2 ++ o.2)))) fun t =>
    M.bind (freeAll o.1) fun _ => M.pure t

/-- nip46.c:106-145 for the text `s`: what is sent. Its memory is in `Verif/Own/Build.lean` (`response`). -/
def sent (E : Nip47.Env) (now : Int) (nonce aux : Option Bytes) (sk peer s : Bytes) : Res Event.Event :=
  Nip44.encrypt E.nc E.b64 E.cfg nonce sk peer s >>= fun ct =>
  Event.computeId E.crypto E.build
    (Nip46.addP E.cfg { Event.zero with kind := Nip46.kind46, createdAt := now, content := some ct } peer) >>= fun e =>
  Event.sign E.crypto E.build aux sk e

/-- nip46.c:73-149 `nostr_nip46_create_response`; simplified: the text is read and released at once, and there is memory for the rest. -/
def respond (A : Alloc) (g : Bytes → Nat) (E : Nip47.Env) (r : Bytes → Json) (now : Int) (nonce aux : Option Bytes) (p : Nip46.Response)
    (sk peer : Bytes) : M (Res Event.Event) :=
  M.bind (content A g r p) fun t =>
  match t with
  | none => M.pure (.err .memory)
  | some t => M.bind (loadStr t) fun s => M.bind (free (some t)) fun _ => M.pure (sent E now nonce aux sk peer s)

end Nostr.Own.Response
