import Verif.Own.ConnProps
import Verif.Own.Sessions

/-! # What the memory of wallet sessions should be -/

namespace Nostr.Own.Sessions
open Nostr Nostr.Heap Nostr.Own

/-- The copies of the names of the permissions. One may be missing only if `P`. -/
inductive Names (P : Prop) (m : Mem) : List (Option Nat) → List Session.Perm → Prop
  | nil : Names P m [] []
  | copy {a p qs ps} (h : m a = some (.str p.name)) (t : Names P m qs ps) : Names P m (some a :: qs) (p :: ps)
  | null {p qs ps} (h : P) (t : Names P m qs ps) : Names P m (none :: qs) (p :: ps)

/-- The array of permissions, its size and its blocks. -/
inductive PermArr (P : Prop) (m : Mem) : Option Nat → List Session.Perm → Option Nat → List Nat → Prop
  | null : PermArr P m none [] none []
  | arr {a qs ps rest} (ha : m a = some (.ptrs (qs ++ rest))) (hn : Names P m qs ps) :
      PermArr P m (some a) ps (some (qs.length + rest.length)) (a :: qs.filterMap id)

/-- The connection of a slot and its blocks. -/
inductive Link (m : Mem) : Option Conn.HConn → List Nat → Prop
  | null : Link m none []
  | conn {c rl ro lud lo} (hr : StrArr m c.relays c.count rl ro) (hl : OptS m c.lud16 lud lo) :
      Link m (some c) (ro ++ (lo ++ [c.self]))

/-- A slot and the blocks it refers to. A slot that is not in use refers to none. -/
structure SlotOwn (P : Prop) (m : Mem) (s : HSlot) (own : List Nat) : Prop where
  parts : ∃ co ao, own = co ++ ao ∧ Link m s.conn co ∧ PermArr P m s.array s.val.perms s.val.cap ao
  conn : s.conn.isSome = s.val.conn.isSome
  idle : s.val.active = false → s.conn = none ∧ s.array = none

/-- The slots and the blocks they refer to. -/
inductive SlotsOwn (P : Prop) (m : Mem) : List HSlot → List Nat → Prop
  | nil : SlotsOwn P m [] []
  | cons {s ss o os} (h : SlotOwn P m s o) (t : SlotsOwn P m ss os) : SlotsOwn P m (s :: ss) (o ++ os)

/-- The blocks `own` are exactly those that the library's variables and the application refer to: the table, the texts
that were handed out, and for each session its connection and its permissions. A missing table, or a missing name, only
if `P`. -/
structure Holds (P : Prop) (m : Mem) (w : World) (own : List Nat) : Prop where
  parts : ∃ so, own = w.table.toList ++ (w.texts ++ so) ∧ SlotsOwn P m w.slots so
  table : w.table = none → w.slots = [] ∧ (w.max > 0 → P)

/-- The values of the sessions. -/
def World.view (w : World) : Bool × Session.Table := (w.table.isSome, ⟨w.slots.map (·.val), w.window, w.count⟩)

/-- What a call does to the values, by the model of sessions without a heap. The first component says whether the table
exists. -/
def Spec.step (op : Op) (t : Bool × Session.Table) : Res ((Bool × Session.Table) × Session.Ret) :=
  let ready (max : Nat) : Session.Table :=
    if t.1 then t.2 else { t.2 with slots := (Session.init max).slots }
  match op with
  | .init max => .ok ((true, ready max), .ok)
  | .create max now timeout id tag uri =>
      match Nip47.parseUri uri with
      | .ok _ => .ok ((true, (Session.create now timeout id tag (ready max)).1), (Session.create now timeout id tag (ready max)).2)
      | .err e => .ok ((true, ready max), refusal e)
      | .ub => .ub
  | .call max now id r => Session.call max now id r t.2 >>= fun q => .ok ((t.1, q.1), q.2)
  | .late max now k r =>
      match t.2.slots[k]? with
      | none => .ok (t, .bad)
      | some s => Session.body max now r s >>= fun q => .ok ((t.1, { t.2 with slots := t.2.slots.set k q.1 }), q.2)
  | .drop _ => .ok (t, .ok)

/-- A history on the values. -/
def Spec.run : List Op → Bool × Session.Table → Res ((Bool × Session.Table) × List Session.Ret)
  | [], t => .ok (t, [])
  | op :: ops, t => Spec.step op t >>= fun q => Spec.run ops q.1 >>= fun r => .ok (r.1, q.2 :: r.2)

/-- The calls that the theorems are about: no connection text with several Lightning addresses (C132), and no permission
added by a call that found its session before another call gave the session up. -/
def Op.tame : Op → Prop
  | .create _ _ _ _ _ uri => Conn.Props.luds uri ≤ 1
  | .late _ _ _ (.add ..) => False
  | _ => True

end Nostr.Own.Sessions
