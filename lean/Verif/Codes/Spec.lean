import Verif.Basic

/-! # The error codes that the documentation names (specification) -/

namespace Nostr.Codes.Spec
open Nostr

/-- The calls for which docs/API.md, include/nostr.h or include/nostr_relay_protocol.h names the code of a failure. -/
inductive Call
  | keyFromHex | keyToHex | keyFromBech32 | eventSign | eventVerify | eventFromJson | relayConnect
  | mnemonicValidate | mineEvent | getRootId | getReplyId | ncryptsecDecrypt
  | delegationVerify | delegationCheck | getDelegation
  | relayMsgSerialize | serializeCanonical | eventSerialize
  deriving DecidableEq, Repr

/-- The documented code of a failure:
docs/API.md:94 (invalid hex), 107 (buffer too small), 134 (invalid bech32), 232 (failure), 243 and nostr.h:590 (event not
valid), 267 (invalid JSON), 354 (failure); nostr.h:466 (mnemonic not valid), 1041 (target not reached), 1079 (no root found),
1091 (no reply found), 1321 (password wrong), 1433 (delegation not valid), 1443 (conditions not satisfied), 1462 (no
delegation tag); nostr_relay_protocol.h:352, 414, 427 (buffer too small). -/
def documented : Call → Err
  | .keyFromHex => .encoding
  | .keyToHex => .invalidParam
  | .keyFromBech32 => .encoding
  | .eventSign => .invalidSignature
  | .eventVerify => .invalidSignature
  | .eventFromJson => .jsonParse
  | .relayConnect => .connection
  | .mnemonicValidate => .invalidParam
  | .mineEvent => .notFound
  | .getRootId => .notFound
  | .getReplyId => .notFound
  | .ncryptsecDecrypt => .invalidSignature
  | .delegationVerify => .invalidSignature
  | .delegationCheck => .invalidEvent
  | .getDelegation => .notFound
  | .relayMsgSerialize => .relay .bufferTooSmall
  | .serializeCanonical => .relay .bufferTooSmall
  | .eventSerialize => .relay .bufferTooSmall

/-- A call that is described as "OK, or else this code": no other code, and no failure without a code. -/
def Answers {α : Type} (c : Call) (r : Res α) : Prop := (∃ a, r = .ok a) ∨ r = .err (documented c)

end Nostr.Codes.Spec
