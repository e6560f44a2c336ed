import Verif.Event.Model
import Verif.Nip51.Model
import Verif.Nip18.Model

/-! # Reactions (src/nip25.c); tag values are non-NULL, allocation succeeds -/

namespace Nostr.Nip25
open Nostr Nostr.Event

/-- nip25.c:34-82 `nostr_reaction_create`. -/
def create (cfg : Option Config.Config) (now : Int) (content : Option Bytes) (id pubkey : Bytes) (relay : Option Bytes) (kind : Nat) : Res Event :=
  if Nip51.hex64 id = false ∨ Nip51.hex64 pubkey = false then .err .invalidParam
  else
    let e0 : Event := { zero with createdAt := now, kind := 7, content := some (content.getD (c!"+")) }
    addTag cfg e0 [c!"e", id, relay.getD [], pubkey] >>= fun e1 =>
    addTag cfg e1 ([c!"p", pubkey] ++ relay.toList) >>= fun e2 =>
    if kind > 0 then addTag cfg e2 [c!"k", Num.decNat kind] else .ok e2

/-- The locals and `*target_kind` of nip25.c:107-136. -/
structure Found where
  id : Option Bytes
  pubkey : Option Bytes
  kind : Nat
  deriving DecidableEq, Repr

/-- nip25.c:127-134: `strtoul` without range error, consuming the whole value, saturated at 65535. -/
def kindOf (v : Bytes) : Option Nat :=
  match Num.scanDec v with
  | some (neg, m, []) =>
      if m ≥ 2 ^ 64 then none else some (min (if neg then (2 ^ 64 - m) % 2 ^ 64 else m) 65535)
  | _ => none

/-- nip25.c:115-136: one iteration of the tag loop (`target_kind` given). -/
def scanTag (f : Found) : List Bytes → Found
  | name :: value :: _ =>
      if name = c!"e" then { f with id := some value }
      else if name = c!"p" then { f with pubkey := some value }
      else if name = c!"k" then { f with kind := (kindOf value).getD f.kind }
      else f
  | _ => f

/-- nip25.c:96-146 `nostr_reaction_parse`: content, target id, target author, target kind. The outputs that
the C function also writes when it returns NOT_FOUND are left out here (see Outbuf/Model.lean). -/
def parse (e : Event) (contentSize idSize pkSize : Nat) : Res (Bytes × Bytes × Bytes × Nat) :=
  if e.kind ≠ 7 then .err .invalidEvent
  else
    let f := e.tags.foldl scanTag ⟨none, none, 0⟩
    if f.id.isSome then .ok (Nip18.copyStr contentSize e.content, Nip18.copyStr idSize f.id, Nip18.copyStr pkSize f.pubkey, f.kind)
    else .err .notFound

/-- nip25.c:148-159 `nostr_reaction_is_like`. -/
def isLike (e : Event) : Res Bool :=
  if e.kind ≠ 7 then .err .invalidEvent else .ok (e.content = none || e.content = some [] || e.content = some (c!"+"))

/-- nip25.c:161-171 `nostr_reaction_is_dislike`. -/
def isDislike (e : Event) : Res Bool :=
  if e.kind ≠ 7 then .err .invalidEvent else .ok (e.content = some (c!"-"))

end Nostr.Nip25
