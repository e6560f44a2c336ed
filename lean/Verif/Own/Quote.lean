import Verif.Own.Ev
import Verif.Own.Uri
import Verif.Nip18.Model

/-!
# Memory of quoting (src/nip18.c `nostr_quote_tags_from_content`)

`Verif/Nip18` models the values. Here are the blocks: the copy of each URI, the relays of what it points at, and those of the event. The
stack arrays are values.
-/

namespace Nostr.Own.Quote
open Nostr Nostr.Heap Nostr.Event Nostr.Own.Ev Nostr.Own.Uri

/-- nip18.c:237-238, 260-261 `if (relay_count > 0 && relays[0]) relay = relays[0];`, as the text that is copied from there. -/
def firstRelay (r : HRel) : M Bytes :=
  if r.count > 0 then
    match r.slots.head? with
    | some (some p) => loadStr p
    | _ => M.pure []
  else M.pure []

/-- nip18.c:243-247, 264-268: the tag is added, and the relays of the pointer are released. -/
def addAndFree (A : Alloc) (cfg : Option Config.Config) (grow : Bool) (v : Event) (e : HEv) (rel : HRel) (t : Bytes → List Bytes) :
    M (Option Err × Event × HEv) :=
  M.bind (firstRelay rel) fun relay =>
  M.bind (addTag A cfg grow v (t relay) e) fun r =>
  M.bind (release rel) fun _ => M.pure r

/-- nip18.c:219-275: the tag for a URI. -/
def quoteOne (A : Alloc) (cfg : Option Config.Config) (grow : Bool) (v : Event) (e : HEv) (u : Nip21.Uri) (rel : HRel) : M (Option Err × Event × HEv) :=
  match u with
  | .note id => addTag A cfg grow v [c!"q", Hex.hexEncode id, [], []] e
  | .nevent n => addAndFree A cfg grow v e rel fun relay => [c!"q", Hex.hexEncode n.id, relay, (n.author.map Hex.hexEncode).getD []]
  | .naddr a => addAndFree A cfg grow v e rel fun relay =>
      [c!"q", (Num.decNat a.kind.toNat ++ c!":" ++ Hex.hexEncode a.pubkey ++ c!":" ++ a.identifier).take 511, relay, []]
  | _ => M.pure (none, v, e)

/-- nip18.c:204-281: the loop; `fuel` bounds the rounds, `grow` says for each round whether the memory behind the tags has to grow, `junk` is
the stack. -/
def loop (A : Alloc) (cfg : Option Config.Config) (grow : Nat → Bool) (junk : Nat → Bytes) : Nat → Event → HEv → Bytes → M (Option Err × Event × HEv)
  | 0, v, e, _ => M.pure (none, v, e)
  | fuel + 1, v, e, pos =>
    match Nip18.findUri pos.length pos with
    | none => M.pure (none, v, e)
    | some p =>
      M.bind (alloc A (.str (p.take (Nip18.uriLen p)))) fun c =>
      match c with
      | none => M.pure (some .memory, v, e)
      | some c =>
        M.bind (loadStr c) fun uri =>
        M.bind (uriParse A (junk fuel) uri) fun r =>
        M.bind (free (some c)) fun _ =>
        match r.1 with
        | .ub => fun _ => none
        | .err _ => loop A cfg grow junk fuel v e (p.drop 1)
        | .ok u =>
          M.bind (quoteOne A cfg (grow fuel) v e u r.2.rel) fun q =>
          match q.1 with
          | some x => M.pure (some x, q.2)
          | none => loop A cfg grow junk fuel q.2.1 q.2.2 (p.drop (Nip18.uriLen p))

/-- nip18.c:192-284 `nostr_quote_tags_from_content`. -/
def quoteTags (A : Alloc) (cfg : Option Config.Config) (grow : Nat → Bool) (junk : Nat → Bytes) (v : Event) (e : HEv) : M (Option Err × Event × HEv) :=
  loop A cfg grow junk (v.text.length + 1) v e v.text

end Nostr.Own.Quote
