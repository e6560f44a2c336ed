
/-!
# Common vocabulary of the model

C bytes are `UInt8`.  A C string (`const char*`) is the list of its bytes *before* the
terminating NUL; `CStr s` says that the list contains no NUL and therefore really is the
content of some C string.  Every modelled function returns `Res α`:

* `Res.ok a`  : the function returned `NOSTR_OK` and produced `a`;
* `Res.err e` : the function returned the error code `e`;
* `Res.ub`    : some step had undefined behaviour in C (out-of-bounds access, signed
  overflow, use after free).  It is an outcome of its own: no theorem identifies it with
  an error return.
-/

namespace Nostr

/-- include/nostr_relay_protocol.h:35-56 `nostr_relay_error_t` (the success code is `Res.ok`). -/
inductive RelayErr
  | invalidJson | missingField | invalidId | invalidPubkey | invalidSig | invalidCreatedAt
  | invalidKind | invalidTags | invalidContent | idMismatch | sigMismatch | futureEvent
  | expiredEvent | invalidSubscriptionId | tooManyFilters | bufferTooSmall | memory
  | unknownMessageType | storage
  deriving DecidableEq, Repr

/-- include/nostr.h:66-80 `nostr_error_t` (the success code is `Res.ok`); `relay` wraps the codes of
the relay-side API, which is a separate enum in C. -/
inductive Err
  | invalidKey | invalidEvent | invalidSignature | memory | jsonParse | encoding
  | connection | protocol | notFound | timeout | invalidParam | notSupported
  | relay (e : RelayErr)
  deriving DecidableEq, Repr

/-- Outcome of a C function: success value, error code, or undefined behaviour. -/
inductive Res (α : Type u)
  | ok (a : α)
  | err (e : Err)
  | ub
  deriving DecidableEq, Repr

namespace Res

/-- Sequencing: stop at the first error or undefined behaviour. -/
def bind {α β : Type _} (x : Res α) (f : α → Res β) : Res β :=
  match x with
  | ok a => f a
  | err e => err e
  | ub => ub

instance : Monad Res where
  pure := Res.ok
  bind := Res.bind

@[simp] theorem bind_ok {α β : Type u} (a : α) (f : α → Res β) : (Res.ok a >>= f) = f a := rfl
@[simp] theorem bind_err {α β : Type u} (e : Err) (f : α → Res β) :
    ((Res.err e : Res α) >>= f) = Res.err e := rfl
@[simp] theorem bind_ub {α β : Type u} (f : α → Res β) : ((Res.ub : Res α) >>= f) = Res.ub := rfl
@[simp] theorem pure_eq {α : Type u} (a : α) : (pure a : Res α) = Res.ok a := rfl
@[simp] theorem map_ok {α β : Type u} (a : α) (f : α → β) : (f <$> Res.ok a) = Res.ok (f a) := rfl
@[simp] theorem map_err {α β : Type u} (e : Err) (f : α → β) :
    (f <$> (Res.err e : Res α)) = Res.err e := rfl
@[simp] theorem map_ub {α β : Type u} (f : α → β) : (f <$> (Res.ub : Res α)) = Res.ub := rfl

/-- A `do` block succeeds iff its first step succeeds and the rest succeeds on its result. -/
theorem bind_assoc {α β γ : Type} (x : Res α) (f : α → Res β) (g : β → Res γ) :
    ((x >>= f) >>= g) = x >>= fun a => f a >>= g := by cases x <;> rfl

theorem bind_eq_ok {α β : Type u} {x : Res α} {f : α → Res β} {b : β} :
    (x >>= f) = Res.ok b ↔ ∃ a, x = Res.ok a ∧ f a = Res.ok b := by
  cases x <;> simp

theorem bind_eq_ub {α β : Type u} {x : Res α} {f : α → Res β} :
    (x >>= f) = Res.ub ↔ x = Res.ub ∨ ∃ a, x = Res.ok a ∧ f a = Res.ub := by
  cases x <;> simp

/-- The call returned `NOSTR_OK`. -/
def isOk {α : Type u} : Res α → Bool
  | ok _ => true
  | _ => false

end Res

/-- Guard: `if (c) return e;`. -/
def failIf (c : Prop) [Decidable c] (e : Err) : Res Unit := if c then .err e else .ok ()

@[simp] theorem failIf_eq_ok {c : Prop} [Decidable c] {e : Err} {u : Unit} :
    failIf c e = .ok u ↔ ¬ c := by
  unfold failIf; split <;> simp_all

theorem failIf_true {c : Prop} [Decidable c] {e : Err} (h : c) : failIf c e = .err e := by
  simp [failIf, h]

theorem failIf_false {c : Prop} [Decidable c] {e : Err} (h : ¬ c) : failIf c e = .ok () := by
  simp [failIf, h]

/-- Bytes. -/
abbrev Bytes := List UInt8

/-- The list is the content of a C string: no NUL inside. -/
def CStr (s : Bytes) : Prop := (0 : UInt8) ∉ s

instance (s : Bytes) : Decidable (CStr s) := inferInstanceAs (Decidable (_ ∉ _))

open Lean in
/-- `c!"text"` is the byte list of an ASCII string literal (elaborated to a plain list literal so
that it computes in the kernel). -/
macro:max "c!" s:str : term => do
  let bytes := s.getString.toUTF8.toList
  let elems : Array (TSyntax `term) ← bytes.toArray.mapM fun b => do
    let n := Syntax.mkNumLit (toString b.toNat)
    `(($n : UInt8))
  `(([$elems,*] : List UInt8))

end Nostr
