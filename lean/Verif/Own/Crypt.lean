import Verif.Own.Basic
import Verif.Nip44.Model
import Verif.Nip04.Model

/-!
# Memory of message encryption (src/nip44.c)

The values are those of `Verif/Nip44/Model.lean` and `Verif/Nip04/Model.lean`; this file adds the blocks: the padded text, the ciphertext,
the payload, the contexts and buffers of OpenSSL, the text delivered. Every allocation can fail. The library is initialised; noscrypt
allocates nothing here. OpenSSL's base64 takes its memory from the
allocator `O`, everything else from `A`. The blocks inside an OpenSSL object count as one with it, except for the growth of a
memory BIO.
-/

namespace Nostr.Own.Crypt
open Nostr Nostr.Heap

/-- A block whose contents do not matter here. -/
def blob : Obj := .str []

/-- The base64 of the build: mbedTLS (nip44.c:130-167) or OpenSSL (169-194, 220-246). The build for ESP with OpenSSL's encoder
and mbedTLS's decoder (195-217) is left out. -/
inductive Plat
  | mbed
  | ossl
  deriving DecidableEq, Repr

/-- What a call returns: its status (`none` is `NOSTR_OK`), the caller's pointer afterwards, and the text in its block. -/
structure Out where
  status : Option Err
  ptr : Option Nat
  text : Bytes
  deriving DecidableEq, Repr

/-! ## Base64 -/

/-- nip44.c:176-179, 228-231: `BIO_new` twice. -/
def bios (O : Alloc) : M (Option Nat × Option Nat) :=
  M.bind (alloc O blob) fun a => M.bind (alloc O blob) fun b => M.pure (a, b)

/-- nip44.c:188-193 and 185-186: the text is copied, the BIOs and the grown buffer `g` are released. -/
def copyOut (A : Alloc) (text : Bytes) (a b g : Option Nat) : M (Option Nat) :=
  M.bind (alloc A (.str text)) fun o =>
  M.bind (free g) fun _ => M.bind (free a) fun _ => M.bind (free b) fun _ => M.pure o

/-- `base64_encode`: the pointer in `*output` afterwards (NULL is the result -1) and the text.

mbedTLS (nip44.c:131-148): the buffer is as long as `mbedtls_base64_encode` has asked for, so that the second call cannot fail.

OpenSSL (nip44.c:169-194), where nothing is checked. Without the base64 BIO, `BIO_push(NULL, bmem)` is `bmem`: the data goes to
the memory unchanged. Without the memory BIO, `BIO_get_mem_ptr` leaves `bptr` NULL, which line 185 follows. Without both,
`BIO_set_flags` is called with NULL. If the memory BIO cannot grow, `BIO_write` and `BIO_flush` fail and it stays empty (simplified:
OpenSSL may have written a part of the text). -/
def encode (A O : Alloc) (P : Plat) (B : Nip04.Codec) (data : Bytes) : M (Option Nat × Bytes) :=
  match P with
  | .mbed => M.bind (alloc A (.str (B.enc data))) fun o => M.pure (o, B.enc data)
  | .ossl =>
    M.bind (bios O) fun r =>
    match r.2 with
    | none => fun _ => none
    | some b =>
      M.bind (alloc O blob) fun g =>
      let text := if g = none then [] else if r.1 = none then data else B.enc data
      M.bind (copyOut A text r.1 (some b) g) fun o => M.pure (o, text)

/-- What `base64_decode` returns: data (`none` is the length `SIZE_MAX`) in a block; or -1, with `*output` NULL or pointing to the
block just released. -/
inductive Dec
  | data (b : Option Bytes) (p : Nat)
  | fail (p : Option Nat)
  deriving DecidableEq, Repr

/-- nip44.c:234-246: the rest of `base64_decode`, `r` being what `BIO_read` delivers (`none` is a negative result). -/
def readOut (r : Option Bytes) (p : Nat) : M Dec :=
  match r with
  | some [] => M.bind (free (some p)) fun _ => M.pure (.fail (some p))
  | r => M.pure (.data r p)

/-- `base64_decode`; `zero` says whether `malloc(0)` returns a pointer.

mbedTLS (nip44.c:150-167): `B.read` is `none` for a text that is not base64.

OpenSSL (nip44.c:220-246; here the memory BIO comes first): without the base64 BIO the text is read unchanged; without the memory BIO `BIO_read` returns 0; without
both, `BIO_set_flags` is called with NULL. -/
def decode (A O : Alloc) (P : Plat) (B : Nip04.Codec) (zero : Bool) (text : Bytes) : M Dec :=
  match P with
  | .mbed =>
    if ((B.read text).getD []).length = 0 ∧ zero = false then M.pure (.fail none)
    else
      M.bind (alloc A blob) fun p =>
      match p with
      | none => M.pure (.fail none)
      | some p =>
        match B.read text with
        | none => M.bind (free (some p)) fun _ => M.pure (.fail (some p))
        | some b => M.pure (.data (some b) p)
  | .ossl =>
    if text.length = 0 ∧ zero = false then M.pure (.fail none)
    else
      M.bind (alloc A blob) fun p =>
      match p with
      | none => M.pure (.fail none)
      | some p =>
        M.bind (bios O) fun r =>
        match r.1, r.2 with
        | none, none => fun _ => none
        | some a, none => M.bind (free (some a)) fun _ => readOut (some text) p
        | none, some b => M.bind (free (some b)) fun _ => readOut (some []) p
        | some a, some b => M.bind (free (some a)) fun _ => M.bind (free (some b)) fun _ => readOut (B.read text) p

/-! ## NIP-44 -/

/-- Library calls that fail: the arguments of the cipher are refused (nip44.c:302-305, 451-453), no MAC is computed (326). -/
structure Faults where
  args : Bool := false
  mac : Bool := false
  deriving DecidableEq, Repr

/-- nip44.c:354-360: the end of `nostr_nip44_encrypt`. -/
def end44 (padded enc payload : Option Nat) (o : Out) : M Out :=
  M.bind (free padded) fun _ => M.bind (free enc) fun _ => M.bind (free payload) fun _ => M.pure o

/-- nip44.c:248-361 `nostr_nip44_encrypt`; `old` is what `*ciphertext` was. -/
def encrypt44 (A O : Alloc) (P : Plat) (N : Nip44.Nc) (B : Nip04.Codec) (cfg : Option Config.Config) (f : Faults) (old : Option Nat)
    (nonce : Option Bytes) (sk pk m : Bytes) : M Out :=
  match nonce with
  | none => end44 none none none ⟨some .memory, old, []⟩
  | some nonce =>
    match Nip44.pad cfg m with
    | .ub => fun _ => none
    | .err _ => end44 none none none ⟨some .memory, old, []⟩
    | .ok padded =>
      M.bind (alloc A blob) fun p =>
      match p with
      | none => end44 none none none ⟨some .memory, old, []⟩
      | some p =>
        M.bind (alloc A blob) fun e =>
        match e with
        | none => end44 (some p) none none ⟨some .memory, old, []⟩
        | some e =>
          if f.args then end44 (some p) (some e) none ⟨some .invalidParam, old, []⟩
          else
            M.bind (free (some p)) fun _ =>
            match N.conv sk pk with
            | none => end44 none (some e) none ⟨some .invalidSignature, old, []⟩
            | some ck =>
              let ct := N.crypt ck nonce padded
              M.bind (alloc A blob) fun i =>
              match i with
              | none => end44 none (some e) none ⟨some .memory, old, []⟩
              | some i =>
                M.bind (free (some i)) fun _ =>
                if f.mac then end44 none (some e) none ⟨some .invalidSignature, old, []⟩
                else
                  M.bind (alloc A blob) fun y =>
                  match y with
                  | none => end44 none (some e) none ⟨some .memory, old, []⟩
                  | some y =>
                    M.bind (free (some e)) fun _ =>
                    M.bind (encode A O P B (2 :: (nonce ++ ct ++ N.mac (N.macKey ck nonce) (nonce ++ ct)))) fun r =>
                    end44 none none (some y) ⟨if r.1 = none then some .memory else none, r.1, r.2⟩

/-- nip44.c:479-484: the end of `nostr_nip44_decrypt`. -/
def end44d (payload dec unpadded : Option Nat) (o : Out) : M Out :=
  M.bind (free payload) fun _ => M.bind (free dec) fun _ => M.bind (free unpadded) fun _ => M.pure o

/-- nip44.c:399-485: from the decoded payload `p` in the block `y` on. -/
def open44 (A : Alloc) (N : Nip44.Nc) (cfg : Option Config.Config) (f : Faults) (old : Option Nat) (sk pk p : Bytes) (y : Nat) : M Out :=
  if p.length < 97 ∨ p.length > 65600 then M.bind (free (some y)) fun _ => M.pure ⟨some .invalidParam, old, []⟩
  else if p.head? ≠ some 2 then M.bind (free (some y)) fun _ => M.pure ⟨some .notSupported, old, []⟩
  else
    let nonce := (p.drop 1).take 32
    let ct := (p.drop 33).take (p.length - 65)
    let mac := p.drop (p.length - 32)
    M.bind (alloc A blob) fun i =>
    match i with
    | none => end44d (some y) none none ⟨some .memory, old, []⟩
    | some i =>
      M.bind (free (some i)) fun _ =>
      match N.conv sk pk with
      | none => end44d (some y) none none ⟨some .invalidSignature, old, []⟩
      | some ck =>
        if mac ≠ N.mac (N.macKey ck nonce) (nonce ++ ct) then end44d (some y) none none ⟨some .invalidSignature, old, []⟩
        else
          M.bind (alloc A blob) fun d =>
          match d with
          | none => end44d (some y) none none ⟨some .memory, old, []⟩
          | some d =>
            if f.args then end44d (some y) (some d) none ⟨some .invalidParam, old, []⟩
            else match Nip44.unpad cfg (N.crypt ck nonce ct) with
              | .ub => fun _ => none
              | .err _ => end44d (some y) (some d) none ⟨some .invalidParam, old, []⟩
              | .ok m =>
                M.bind (alloc A blob) fun u =>
                match u with
                | none => end44d (some y) (some d) none ⟨some .invalidParam, old, []⟩
                | some u =>
                  M.bind (alloc A (.str m)) fun t =>
                  end44d (some y) (some d) (some u) ⟨if t = none then some .memory else none, t, m⟩

/-- nip44.c:363-485 `nostr_nip44_decrypt`; `old` is what `*plaintext` was. A payload of the length `SIZE_MAX` is refused by line 403. -/
def decrypt44 (A O : Alloc) (P : Plat) (N : Nip44.Nc) (B : Nip04.Codec) (cfg : Option Config.Config) (zero : Bool) (f : Faults)
    (old : Option Nat) (sk pk text : Bytes) : M Out :=
  if text.head? = some 0x23 then M.pure ⟨some .notSupported, old, []⟩
  else
    M.bind (decode A O P B zero text) fun r =>
    match r with
    | .fail _ => M.pure ⟨some .invalidParam, old, []⟩
    | .data none y => M.bind (free (some y)) fun _ => M.pure ⟨some .invalidParam, old, []⟩
    | .data (some p) y => open44 A N cfg f old sk pk p y

/-! ## NIP-04 (the build with OpenSSL) -/

/-- nip44.c:577-584: the end of `nostr_nip04_encrypt`. -/
def end04 (ctx enc content iv : Option Nat) (o : Out) : M Out :=
  M.bind (free ctx) fun _ => M.bind (free enc) fun _ => M.bind (free content) fun _ => M.bind (free iv) fun _ => M.pure o

/-- nip44.c:502-585 `nostr_nip04_encrypt`; `args` says that OpenSSL refuses a step (534, 546, 551). -/
def encrypt04 (A O : Alloc) (C : Nip04.Cipher) (B : Nip04.Codec) (args : Bool) (old : Option Nat) (secret iv : Option Bytes) (m : Bytes) : M Out :=
  match secret with
  | none => M.pure ⟨some .invalidKey, old, []⟩
  | some key =>
    match iv with
    | none => end04 none none none none ⟨some .memory, old, []⟩
    | some iv =>
      if m.length % 2 ^ 32 ≥ Nip04.limit then fun _ => none
      else
        M.bind (alloc A blob) fun x =>
        match x with
        | none => end04 none none none none ⟨some .memory, old, []⟩
        | some x =>
          M.bind (alloc A blob) fun e =>
          match e with
          | none => end04 (some x) none none none ⟨some .memory, old, []⟩
          | some e =>
            if args then end04 (some x) (some e) none none ⟨some .invalidParam, old, []⟩
            else
              M.bind (encode A O .ossl B (Nip04.cbc C key iv (m.take (m.length % 2 ^ 32)))) fun r =>
              match r.1 with
              | none => end04 (some x) (some e) none none ⟨some .memory, old, []⟩
              | some c =>
                M.bind (encode A O .ossl B iv) fun s =>
                match s.1 with
                | none => end04 (some x) (some e) (some c) none ⟨some .memory, old, []⟩
                | some i =>
                  M.bind (alloc A (.str (r.2 ++ c!"?iv=" ++ s.2))) fun t =>
                  end04 (some x) (some e) (some c) (some i)
                    ⟨if t = none then some .memory else none, t, r.2 ++ c!"?iv=" ++ s.2⟩

/-- nip44.c:674-683: the end of `nostr_nip04_decrypt`. -/
def end04d (ctx input content iv dec : Option Nat) (o : Out) : M Out :=
  M.bind (free ctx) fun _ => M.bind (free input) fun _ => M.bind (free content) fun _ => M.bind (free iv) fun _ =>
  M.bind (free dec) fun _ => M.pure o

/-- nip44.c:636-673: from the cipher on; `q` is the caller's text, `y` and `z` the decoded blocks, `c` the content (`none` has the
length `SIZE_MAX`, which `EVP_DecryptUpdate` refuses). -/
def open04 (A : Alloc) (C : Nip04.Cipher) (args : Bool) (old : Option Nat) (key iv : Bytes) (c : Option Bytes) (q y z : Nat) : M Out :=
  M.bind (alloc A blob) fun x =>
  match x with
  | none => end04d none (some q) (some y) (some z) none ⟨some .memory, old, []⟩
  | some x =>
    M.bind (alloc A blob) fun d =>
    match d with
    | none => end04d (some x) (some q) (some y) (some z) none ⟨some .memory, old, []⟩
    | some d =>
      match if args then none else c.bind (Nip04.uncbc C key iv) with
      | none => end04d (some x) (some q) (some y) (some z) (some d) ⟨some .invalidParam, old, []⟩
      | some m =>
        M.bind (alloc A (.str m)) fun t =>
        end04d (some x) (some q) (some y) (some z) (some d) ⟨if t = none then some .memory else none, t, m⟩

/-- nip44.c:587-686 `nostr_nip04_decrypt`. The pointers of a failed `base64_decode` are released again at the end (678, 679). -/
def decrypt04 (A O : Alloc) (C : Nip04.Cipher) (B : Nip04.Codec) (zero args : Bool) (old : Option Nat) (secret : Option Bytes) (text : Bytes) :
    M Out :=
  M.bind (alloc A (.str text)) fun q =>
  match q with
  | none => M.pure ⟨some .memory, old, []⟩
  | some q =>
    match Nip04.cut text with
    | none => M.bind (free (some q)) fun _ => M.pure ⟨some .invalidParam, old, []⟩
    | some (content, ivText) =>
      M.bind (decode A O .ossl B zero content) fun r =>
      match r with
      | .fail y => end04d none (some q) y none none ⟨some .invalidParam, old, []⟩
      | .data c y =>
        M.bind (decode A O .ossl B zero ivText) fun s =>
        match s with
        | .fail z => end04d none (some q) (some y) z none ⟨some .invalidParam, old, []⟩
        | .data none z => end04d none (some q) (some y) (some z) none ⟨some .invalidParam, old, []⟩
        | .data (some iv) z =>
          if iv.length ≠ 16 then end04d none (some q) (some y) (some z) none ⟨some .invalidParam, old, []⟩
          else match secret with
            | none => end04d none (some q) (some y) (some z) none ⟨some .invalidKey, old, []⟩
            | some key => open04 A C args old key iv c q y z

end Nostr.Own.Crypt
