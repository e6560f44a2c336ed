import Verif.Nip21.Model
import Verif.Hex.Spec
import Verif.Num

/-! # Vocabulary of C53 and C107 -/

namespace Nostr.Nip18.Spec
open Nostr

/-- 64 hex digits. -/
def Hex64 (s : Bytes) : Prop := s.length = 64 ∧ ∀ c ∈ s, Hex.Spec.IsHexDigit c

/-- An event reference: `["e", id, …]`. -/
def IsE (t : List Bytes) : Prop := ∃ id rest, t = c!"e" :: id :: rest

/-- The places of a text that look like a quote: `nostr:note1…`, `nostr:nevent1…` or `nostr:naddr1…` followed by
lower-case letters and digits, in order. -/
def uris : Bytes → List Bytes
  | [] => []
  | c :: s =>
      if c!"nostr:note1" <+: c :: s ∨ c!"nostr:nevent1" <+: c :: s ∨ c!"nostr:naddr1" <+: c :: s then
        (c!"nostr:" ++ ((c :: s).drop 6).takeWhile fun x =>
          (0x61 ≤ x.toNat && x.toNat ≤ 0x7a) || (0x30 ≤ x.toNat && x.toNat ≤ 0x39)) :: uris s
      else uris s

/-- The NIP-18 tag of a quoted entity: id or address, first relay hint, author. -/
def tagOf : Nip21.Uri → Option (List Bytes)
  | .note id => some [c!"q", Hex.Spec.hexText id, [], []]
  | .nevent n => some [c!"q", Hex.Spec.hexText n.id, n.relays.headD [], Hex.Spec.hexText (n.author.getD [])]
  | .naddr a => some [c!"q", Num.decNat a.kind.toNat ++ c!":" ++ Hex.Spec.hexText a.pubkey ++ c!":" ++ a.identifier,
      a.relays.headD [], []]
  | _ => none

/-- The tags of all quotes of a text: every place holding a URI that `nostr_uri_parse` accepts (the first
argument of `uriParse` is leftover stack content, which does not matter for accepted texts). -/
def found (text : Bytes) : List (List Bytes) :=
  (uris text).filterMap fun u =>
    match Nip21.uriParse (List.replicate 84 0) u with
    | .ok x => tagOf x
    | _ => none

end Nostr.Nip18.Spec
