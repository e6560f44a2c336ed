import Verif.Wipe.Crypt
import Verif.Gift.Model

/-!
# What private messages and gift wraps leave in memory (src/nip17.c, src/nip59.c, the build with noscrypt)

The buffers and blocks of the functions themselves; for those of the functions they call see C159 (signing), C160 (new
keys) and C164 (encryption). `Faults` says which of the allocations fail that the value model (`Nostr.Gift`) takes to succeed. Blocks with encrypted text are left
out, and so are events, whose memory is modelled in `Nostr.Own.Mail`.
-/

namespace Nostr.Wipe.Gift
open Nostr Nostr.Event Nostr.Wipe Nostr.Wipe.Crypt
open Nostr.Gift (Env Draw pastTwoDays randomize)

/-- Allocations that may fail: the event, its content. -/
structure Faults where
  create : Bool := false
  content : Bool := false

/-! ## Seals -/

/-- nip17.c:129-194, nip59.c:362-428: from the public key of the author on. `secret` is `nc_secret`, `text` the
text that was released before. -/
def sealRest (E : Env) (x : Faults) (secret : Bytes) (aux : Option Bytes) (sk : Bytes) (time : Int) (text ct : Bytes) : Call (Res Event) :=
  let secret := over 0 sk secret
  match E.crypto.pubOf (secret.take 32) with
  | none =>
      let secret := wipe 32 secret
      ⟨.err .invalidKey, [secret], [text]⟩
  | some pk =>
      let secret := wipe 32 secret
      if x.content then ⟨.err .memory, [secret], [text]⟩
      else match computeId E.crypto E.build { zero with kind := 13, createdAt := time, pubkey := pk, content := some ct } with
        | .ub => ⟨.ub, [secret], [text]⟩
        | .err e => ⟨.err e, [secret], [text]⟩
        | .ok e => ⟨sign E.crypto E.build aux sk e, [secret], [text]⟩

/-- nip17.c:92-195 `nostr_nip17_create_seal`. -/
def createSeal (E : Env) (x : Faults) (secret : Bytes) (D : Draw) (rumor : Event) (sk rpk : Bytes) : Call (Res Event) :=
  match toJson E.build rumor with
  | .ub => ⟨.ub, [secret], []⟩
  | .err e => ⟨.err e, [secret], []⟩
  | .ok text =>
      match Nip44.encrypt E.nc E.b64 E.cfg D.nonce sk rpk text with
      | .ub => ⟨.ub, [secret], [text]⟩
      | .err e => ⟨.err e, [secret], [text]⟩
      | .ok ct =>
          if x.create then ⟨.err .memory, [secret], [text]⟩
          else match pastTwoDays D.now D.offset with
            | .ub => ⟨.ub, [secret], [text]⟩
            | .err e => ⟨.err e, [secret], [text]⟩
            | .ok time => sealRest E x secret D.aux sk time text ct

/-- nip59.c:328-429 `nostr_nip59_create_seal`. -/
def createSeal59 (E : Env) (x : Faults) (secret : Bytes) (D : Draw) (rumor : Event) (sk rpk : Bytes) : Call (Res Event) :=
  match toJson E.build rumor with
  | .ub => ⟨.ub, [secret], []⟩
  | .err e => ⟨.err e, [secret], []⟩
  | .ok text =>
      match Nip44.encrypt E.nc E.b64 E.cfg D.nonce sk rpk text with
      | .ub => ⟨.ub, [secret], [text]⟩
      | .err e => ⟨.err e, [secret], [text]⟩
      | .ok ct =>
          if x.create then ⟨.err .memory, [secret], [text]⟩
          else sealRest E x secret D.aux sk (randomize D.now D.offset) text ct

/-! ## Gift wraps -/

/-- nip17.c:247-290, nip59.c:479-539, 174-218: from the content on. `priv` is `ephemeral_privkey`. The extra tags of NIP-59 are
added one after the other; the first that fails ends the call in the same way as the first tag. -/
def wrapRest (E : Env) (x : Faults) (priv : Bytes) (aux : Option Bytes) (epk rpk : Bytes) (time : Int) (extra : List Bytes) (text ct : Bytes) :
    Call (Res Event) :=
  if x.content then
    let priv := wipe 32 priv
    ⟨.err .memory, [priv], [text]⟩
  else match addTag E.cfg { zero with kind := 1059, createdAt := time, pubkey := epk, content := some ct } [c!"p", Hex.hexEncode rpk] with
    | .ub => ⟨.ub, [priv], [text]⟩
    | .err e =>
        let priv := wipe 32 priv
        ⟨.err e, [priv], [text]⟩
    | .ok e1 =>
        match Nostr.Gift.pairTags E.cfg e1 extra with
        | .ub => ⟨.ub, [priv], [text]⟩
        | .err e =>
            let priv := wipe 32 priv
            ⟨.err e, [priv], [text]⟩
        | .ok e2 =>
            match computeId E.crypto E.build e2 with
            | .ub => ⟨.ub, [priv], [text]⟩
            | .err e =>
                let priv := wipe 32 priv
                ⟨.err e, [priv], [text]⟩
            | .ok e3 =>
                let r := sign E.crypto E.build aux (priv.take 32) e3
                let priv := wipe 32 priv
                ⟨r, [priv], [text]⟩

/-- nip17.c:197-290 `nostr_nip17_create_gift_wrap`. -/
def createWrap (E : Env) (x : Faults) (priv : Bytes) (D : Draw) (eph : Res (Bytes × Bytes)) (sl : Event) (rpk : Bytes) : Call (Res Event) :=
  match eph with
  | .ub => ⟨.ub, [priv], []⟩
  | .err e => ⟨.err e, [priv], []⟩
  | .ok (esk, epk) =>
      let priv := over 0 esk priv
      match toJson E.build sl with
      | .ub => ⟨.ub, [priv], []⟩
      | .err e =>
          let priv := wipe 32 priv
          ⟨.err e, [priv], []⟩
      | .ok text =>
          match Nip44.encrypt E.nc E.b64 E.cfg D.nonce (priv.take 32) rpk text with
          | .ub => ⟨.ub, [priv], [text]⟩
          | .err e =>
              let priv := wipe 32 priv
              ⟨.err e, [priv], [text]⟩
          | .ok ct =>
              if x.create then
                let priv := wipe 32 priv
                ⟨.err .memory, [priv], [text]⟩
              else match pastTwoDays D.now D.offset with
                | .ub => ⟨.ub, [priv], [text]⟩
                | .err e =>
                    let priv := wipe 32 priv
                    ⟨.err e, [priv], [text]⟩
                | .ok time => wrapRest E x priv D.aux epk rpk time [] text ct

/-- nip59.c:431-539 `nostr_nip59_create_gift_wrap`, and nip59.c:138-218, the second half of `nostr_nip59_wrap_event`. -/
def createWrap59 (E : Env) (x : Faults) (priv : Bytes) (D : Draw) (eph : Res (Bytes × Bytes)) (sl : Event) (rpk : Bytes) (extra : List Bytes) :
    Call (Res Event) :=
  match eph with
  | .ub => ⟨.ub, [priv], []⟩
  | .err e => ⟨.err e, [priv], []⟩
  | .ok (esk, epk) =>
      let priv := over 0 esk priv
      match toJson E.build sl with
      | .ub => ⟨.ub, [priv], []⟩
      | .err e =>
          let priv := wipe 32 priv
          ⟨.err e, [priv], []⟩
      | .ok text =>
          match Nip44.encrypt E.nc E.b64 E.cfg D.nonce (priv.take 32) rpk text with
          | .ub => ⟨.ub, [priv], [text]⟩
          | .err e =>
              let priv := wipe 32 priv
              ⟨.err e, [priv], [text]⟩
          | .ok ct =>
              if x.create then
                let priv := wipe 32 priv
                ⟨.err .memory, [priv], [text]⟩
              else wrapRest E x priv D.aux epk rpk (randomize D.now D.offset) extra text ct

/-- nip59.c:37-136, the first half of `nostr_nip59_wrap_event`: the public key comes before the encryption. -/
def wrapSeal (E : Env) (x : Faults) (secret : Bytes) (D : Draw) (event : Event) (sk rpk : Bytes) : Call (Res Event) :=
  match toJson E.build event with
  | .ub => ⟨.ub, [secret], []⟩
  | .err e => ⟨.err e, [secret], []⟩
  | .ok text =>
      if x.create then ⟨.err .memory, [secret], [text]⟩
      else
        let secret := over 0 sk secret
        match E.crypto.pubOf (secret.take 32) with
        | none =>
            let secret := wipe 32 secret
            ⟨.err .invalidKey, [secret], [text]⟩
        | some pk =>
            let secret := wipe 32 secret
            match Nip44.encrypt E.nc E.b64 E.cfg D.nonce sk rpk text with
            | .ub => ⟨.ub, [secret], [text]⟩
            | .err e => ⟨.err e, [secret], [text]⟩
            | .ok ct =>
                if x.content then ⟨.err .memory, [secret], [text]⟩
                else match computeId E.crypto E.build
                    { zero with kind := 13, createdAt := randomize D.now D.offset, pubkey := pk, content := some ct } with
                  | .ub => ⟨.ub, [secret], [text]⟩
                  | .err e => ⟨.err e, [secret], [text]⟩
                  | .ok e => ⟨sign E.crypto E.build D.aux sk e, [secret], [text]⟩

/-- nip59.c:37-218 `nostr_nip59_wrap_event`. -/
def wrapEvent (E : Env) (x1 x2 : Faults) (secret priv : Bytes) (D1 D2 : Draw) (eph : Res (Bytes × Bytes)) (event : Event) (sk rpk : Bytes) :
    Call (Res Event) :=
  let a := wrapSeal E x1 secret D1 event sk rpk
  match a.view with
  | .ub => ⟨.ub, a.locals ++ [priv], a.freed⟩
  | .err e => ⟨.err e, a.locals ++ [priv], a.freed⟩
  | .ok sl =>
      let b := createWrap59 E x2 priv D2 eph sl rpk []
      ⟨b.view, a.locals ++ b.locals, a.freed ++ b.freed⟩

/-- nip17.c:292-392 `nostr_nip17_send_dm`: `secret` is the copy of the key in this function, `secret'` that in
`nostr_nip17_create_seal`, `priv` the key of the wrap. -/
def sendDm (E : Env) (x1 x2 : Faults) (secret secret' priv : Bytes) (D1 D2 : Draw) (eph : Res (Bytes × Bytes)) (content sk rpk : Bytes)
    (subject replyTo : Option Bytes) (createdAt : Int) : Call (Res Event) :=
  let secret := over 0 sk secret
  match E.crypto.pubOf (secret.take 32) with
  | none =>
      let secret := wipe 32 secret
      ⟨.err .invalidKey, [secret, secret', priv], []⟩
  | some pk =>
      let secret := wipe 32 secret
      match Nostr.Gift.createRumor E D1.now 14 pk content createdAt >>= fun rumor =>
          Nostr.Gift.addAll E.cfg rumor (Nostr.Gift.dmTags rpk subject replyTo) with
      | .ub => ⟨.ub, [secret, secret', priv], []⟩
      | .err e => ⟨.err e, [secret, secret', priv], []⟩
      | .ok rumor =>
          let a := createSeal E x1 secret' D1 rumor sk rpk
          match a.view with
          | .ub => ⟨.ub, secret :: (a.locals ++ [priv]), a.freed⟩
          | .err e => ⟨.err e, secret :: (a.locals ++ [priv]), a.freed⟩
          | .ok sl =>
              let b := createWrap E x2 priv D2 eph sl rpk
              ⟨b.view, secret :: (a.locals ++ b.locals), a.freed ++ b.freed⟩

/-! ## Opening -/

/-- nip17.c:412-423 and 443-455, nip59.c:239-251 and 271-281: one layer. The block of the deciphered text has one byte more,
which is zero; the length of the text is what is wiped. -/
def openLayer (E : Env) (sk pk : Bytes) (content : Option Bytes) : Run (Res Event) :=
  match content with
  | none => ⟨.err .invalidParam, []⟩
  | some t =>
      match Nip44.decrypt E.nc E.b64 E.cfg sk pk t with
      | .ub => ⟨.ub, []⟩
      | .err e => ⟨.err e, []⟩
      | .ok m =>
          let block := m ++ [0]
          let r := fromJson E.plat E.build E.cfg (Json.cstr block)
          let block := wipe m.length block
          ⟨r, [block]⟩

/-- nip17.c:408-434, nip59.c:234-263: the verified seal. -/
def openSeal (E : Env) (wrap : Event) (sk : Bytes) : Run (Res Event) :=
  if wrap.kind ≠ 1059 then ⟨.err .invalidEvent, []⟩
  else
    let a := openLayer E sk wrap.pubkey wrap.content
    match a.view with
    | .ub => ⟨.ub, a.left⟩
    | .err e => ⟨.err e, a.left⟩
    | .ok sl =>
        if sl.kind ≠ 13 then ⟨.err .invalidEvent, a.left⟩
        else match verify E.crypto E.build sl with
          | .ub => ⟨.ub, a.left⟩
          | .err e => ⟨.err e, a.left⟩
          | .ok _ => ⟨.ok sl, a.left⟩

/-- nip59.c:220-285 `nostr_nip59_unwrap_event`; with `check` nip17.c:394-464 `nostr_nip17_unwrap_dm`. -/
def unwrap (check : Bool) (E : Env) (wrap : Event) (sk : Bytes) : Run (Res Event) :=
  let a := openSeal E wrap sk
  match a.view with
  | .ub => ⟨.ub, a.left⟩
  | .err e => ⟨.err e, a.left⟩
  | .ok sl =>
      let b := openLayer E sk sl.pubkey sl.content
      match b.view with
      | .ub => ⟨.ub, a.left ++ b.left⟩
      | .err e => ⟨.err e, a.left ++ b.left⟩
      | .ok rumor =>
          if check ∧ rumor.pubkey ≠ sl.pubkey then ⟨.err .invalidEvent, a.left ++ b.left⟩
          else ⟨.ok rumor, a.left ++ b.left⟩

end Nostr.Wipe.Gift
