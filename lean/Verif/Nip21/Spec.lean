import Verif.Nip21.Model

/-!
# Specification vocabulary for NIP-19 TLV entities (independent of the parser)
-/

namespace Nostr.Nip21.Spec
open Nostr Nostr.Nip21

/-- A TLV record. -/
structure Rec where
  type : UInt8
  value : Bytes
  deriving DecidableEq, Repr

/-- Wire form: type byte, length byte, value. -/
def wire (rs : List Rec) : Bytes :=
  rs.flatMap fun r => [r.type, UInt8.ofNat r.value.length] ++ r.value

/-- The length byte can express the length of every value. -/
def Wf (rs : List Rec) : Prop := ∀ r ∈ rs, r.value.length ≤ 255

/-- Big-endian number. -/
def beNat (v : Bytes) : Nat := v.foldl (fun acc b => acc * 256 + b.toNat) 0

/-- A relay URL as NIP-19 entities may carry it: `ws://` or `wss://`, 6..255 printable, non-space
ASCII characters. -/
def RelayUrl (u : Bytes) : Prop :=
  6 ≤ u.length ∧ u.length ≤ 255 ∧ (c!"wss://" <+: u ∨ c!"ws://" <+: u) ∧
    ∀ c ∈ u, 0x21 ≤ c.toNat ∧ c.toNat ≤ 0x7e

instance (u : Bytes) : Decidable (RelayUrl u) := inferInstanceAs (Decidable (_ ∧ _ ∧ _ ∧ _))

/-- Last record satisfying `p`. -/
def lastSuch (p : Rec → Bool) (rs : List Rec) : Option Bytes :=
  ((rs.filter p).getLast?).map Rec.value

/-- What a list of records means: the last special value (empty when there is none), the first
`maxRelays` relay records that are valid URLs in order, the last 32-byte author, the last 4-byte kind.
-/
def meaning (a : TlvArgs) (rs : List Rec) : Tlv where
  special := (lastSuch (fun r => r.type = 0) rs).getD []
  relays := if a.wantRelays then
      (((rs.filter fun r => r.type = 1).map Rec.value).filter fun u => RelayUrl u).take a.maxRelays
    else []
  author := if a.wantAuthor then lastSuch (fun r => r.type = 2 ∧ r.value.length = 32) rs else none
  kind := if a.wantKind then
      (lastSuch (fun r => r.type = 3 ∧ r.value.length = 4) rs).map (fun v => BitVec.ofNat 32 (beNat v))
    else none

/-- Some special value does not fit the caller's buffer. -/
def SpecialTooLong (a : TlvArgs) (rs : List Rec) : Prop :=
  ∃ r ∈ rs, r.type = 0 ∧ a.specialSize < r.value.length

/-- Space the relay records take. -/
def relaySpace (relays : List Bytes) : Nat := (relays.map fun r => r.length + 2).sum

/-- At most 16 relays, each a relay URL. -/
def GoodRelays (relays : List Bytes) : Prop := relays.length ≤ 16 ∧ ∀ r ∈ relays, RelayUrl r

instance (rs : List Bytes) : Decidable (GoodRelays rs) := inferInstanceAs (Decidable (_ ∧ _))

/-- The entity respects the field sizes of its C struct and its records fit 4096 bytes. -/
def InLimits : Uri → Prop
  | .npub k | .nsec k | .note k => k.length = 32
  | .nprofile p => p.pubkey.length = 32 ∧ GoodRelays p.relays ∧ 34 + relaySpace p.relays ≤ 4096
  | .nevent e => e.id.length = 32 ∧ (∀ a ∈ e.author, a.length = 32) ∧ GoodRelays e.relays ∧
      34 + relaySpace e.relays + (if e.author.isSome then 34 else 0)
        + (if e.kind.isSome then 6 else 0) ≤ 4096
  | .naddr a => a.identifier.length ≤ 255 ∧ CStr a.identifier ∧ a.pubkey.length = 32 ∧
      GoodRelays a.relays ∧ 2 + a.identifier.length + relaySpace a.relays + 40 ≤ 4096
  | .nrelay u => 1 ≤ u.length ∧ u.length ≤ 255 ∧ CStr u

instance (u : Uri) : Decidable (InLimits u) := by
  cases u <;> unfold InLimits <;> infer_instance

/-- Human-readable part of an entity's text. -/
def hrp : Uri → Bytes
  | .npub _ => c!"npub"
  | .nsec _ => c!"nsec"
  | .note _ => c!"note"
  | .nprofile _ => c!"nprofile"
  | .nevent _ => c!"nevent"
  | .naddr _ => c!"naddr"
  | .nrelay _ => c!"nrelay"

end Nostr.Nip21.Spec
