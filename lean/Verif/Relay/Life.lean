import Verif.Basic

/-!
# Lifecycle of a relay connection (src/relay.c, threaded build) and properties C36, C93

A run is a sequence of API calls of the application and of protocol callbacks in service threads. The
websocket library is represented by what it may do: succeed or fail in `connect`, and call the protocol
callback of a context as long as that context exists. Each call is one atomic step here.
-/

namespace Nostr.Relay.Life
open Nostr

/-- `nostr_relay_state`. -/
inductive St
  | disconnected | connecting | connected | error
  deriving DecidableEq, Repr

/-- The relay object and the connection contexts. -/
structure World where
  /-- the relay object is allocated -/
  relay : Bool
  /-- relay->state -/
  st : St
  /-- relay->ws_handle; contexts are numbered -/
  handle : Option Nat
  /-- the contexts that are allocated; each has a service thread -/
  ctxs : List Nat
  /-- number of the next context -/
  next : Nat
  deriving DecidableEq, Repr

/-- How far `nostr_relay_connect` gets. -/
inductive Outcome
  /-- lws_create_context, the URL scheme or calloc fails (relay.c:214-255) -/
  | early
  /-- the mutex cannot be created (relay.c:270-276) -/
  | mutex
  /-- lws_client_connect_via_info returns NULL (relay.c:281-288) -/
  | client
  /-- the thread cannot be created (relay.c:309-317) -/
  | thread
  | ok
  deriving DecidableEq, Repr

/-- Why the protocol callback is called. -/
inductive Reason
  | established
  | receive
  /-- CONNECTION_ERROR or CLOSED; `again` tells whether the reconnect interval has passed -/
  | lost (again : Bool)
  /-- any other reason, such as WSI_DESTROY after the connection is lost -/
  | other
  deriving DecidableEq, Repr

inductive Op
  | connect (o : Outcome)
  | setCallback
  | disconnect
  /-- send_event, subscribe or unsubscribe -/
  | use
  /-- the protocol callback in the service thread of a context -/
  | net (k : Nat) (r : Reason)
  | destroy
  deriving DecidableEq, Repr

/-- relay.c:161-184 `nostr_relay_create`. -/
def created : World := ⟨true, .disconnected, none, [], 0⟩

/-- relay.c:197-327 `nostr_relay_connect` with a callback. -/
def connect (o : Outcome) (w : World) : Res World :=
  if w.st = .connected ∨ w.st = .connecting then .ok w
  else match o with
    | .early => .ok w
    | .mutex => .ok { w with st := .error }
    | .client => .ok { w with st := .error, handle := some w.next, next := w.next + 1 }
    | .thread => .ok { w with st := .error, handle := none, next := w.next + 1 }
    | .ok => .ok { w with st := .connecting, handle := some w.next, ctxs := w.next :: w.ctxs, next := w.next + 1 }

/-- Access to the context a handle refers to. -/
def deref (w : World) (h : Option Nat) : Res Unit :=
  match h with
  | none => .ok ()
  | some k => if k ∈ w.ctxs then .ok () else .ub

/-- relay.c:491-506 `nostr_relay_set_message_callback`. -/
def setCallback (w : World) : Res World := deref w w.handle >>= fun _ => .ok w

/-- relay.c:329-378 `nostr_relay_disconnect`: the thread is joined, the context freed. -/
def disconnect (w : World) : Res World :=
  match w.handle with
  | none => .ok w
  | some k => if k ∈ w.ctxs then .ok { w with st := .disconnected, handle := none, ctxs := w.ctxs.erase k } else .ub

/-- relay.c:380-395, 426-441, 508-520: calls that need a connection. -/
def use (w : World) : Res World :=
  if w.st = .connected then deref w w.handle >>= fun _ => .ok w else .ok w

/-- relay.c:186-195 `nostr_relay_destroy`. -/
def destroy (w : World) : Res World :=
  (if w.st = .connected ∨ w.st = .connecting then disconnect w else .ok w) >>= fun w => .ok { w with relay := false }

/-- relay.c:560-734 `callback_nostr_relay`: every reason reads relay->ws_handle (line 563). -/
def net (r : Reason) (w : World) : Res World :=
  if !w.relay then .ub
  else match r with
    | .established => match w.handle with
        | none => .ok w
        | some _ => deref w w.handle >>= fun _ => .ok { w with st := .connected }
    | .receive => deref w w.handle >>= fun _ => .ok w
    | .lost again => match w.handle with
        | none => .ok w
        | some _ => deref w w.handle >>= fun _ => .ok { w with st := if again then .connecting else .disconnected }
    | .other => .ok w

/-- One step. The error stands for what does not happen: calls of the application on a destroyed relay, and
callbacks of a context that does not exist. -/
def step (w : World) (o : Op) : Res World :=
  match o with
  | .net k r => if k ∈ w.ctxs then net r w else .err .invalidParam
  | .connect oc => if w.relay then connect oc w else .err .invalidParam
  | .setCallback => if w.relay then setCallback w else .err .invalidParam
  | .disconnect => if w.relay then disconnect w else .err .invalidParam
  | .use => if w.relay then use w else .err .invalidParam
  | .destroy => if w.relay then destroy w else .err .invalidParam

/-- A whole run. -/
def run : World → List Op → Res World
  | w, [] => .ok w
  | w, o :: os => step w o >>= fun w => run w os

/-- Specification: the connection was lost and the application has not called `disconnect` since. -/
def lost : List Op → Bool → Bool
  | [], b => b
  | .net _ (.lost _) :: os, _ => lost os true
  | .disconnect :: os, _ => lost os false
  | _ :: os, b => lost os b

/-- Specification: no client connection attempt fails at once, and after a loss the application disconnects
before it connects again or destroys the relay. -/
def Careful (os : List Op) : Prop :=
  ∀ pre o post, os = pre ++ o :: post →
    o ≠ .connect .client ∧ ((∃ c, o = .connect c) ∨ o = .destroy → lost pre false = false)

/-- What holds between the steps of a careful run. -/
def Inv (l : Bool) (w : World) : Prop :=
  if w.relay then
    (w.handle = none ∧ w.ctxs = [] ∧ (w.st = .disconnected ∨ w.st = .error)) ∨
    (∃ k, w.handle = some k ∧ w.ctxs = [k] ∧ (l = true ∨ w.st = .connected ∨ w.st = .connecting))
  else w.ctxs = []

theorem step_inv {l : Bool} {w : World} {o : Op} (hi : Inv l w) (h1 : o ≠ .connect .client)
    (h2 : (∃ c, o = .connect c) ∨ o = .destroy → l = false) :
    (∃ w', step w o = .ok w' ∧ Inv (lost [o] l) w') ∨ ∃ e, step w o = .err e := by
  obtain ⟨rl, st, hd, cs, nx⟩ := w
  unfold Inv at hi
  cases rl with
  | false =>
    simp only [Bool.false_eq_true, if_false] at hi
    subst hi
    right
    cases o <;> exact ⟨_, rfl⟩
  | true =>
    simp only [if_true] at hi
    rcases hi with ⟨hh, hc, hs⟩ | ⟨k, hh, hc, hs⟩
    · subst hh hc
      cases o with
      | net k r => right; exact ⟨.invalidParam, by simp [step]⟩
      | connect c =>
        left
        have hst : ¬ (st = .connected ∨ st = .connecting) := by rcases hs with rfl | rfl <;> decide
        simp only [step, if_true, connect, hst, if_false]
        cases c with
        | client => exact absurd rfl h1
        | early => exact ⟨_, rfl, by simpa [Inv] using hs⟩
        | mutex => exact ⟨_, rfl, by simp [Inv]⟩
        | thread => exact ⟨_, rfl, by simp [Inv]⟩
        | ok => exact ⟨_, rfl, by simp [Inv]⟩
      | setCallback => left; exact ⟨_, rfl, by simpa [Inv] using hs⟩
      | disconnect => left; exact ⟨_, rfl, by simpa [Inv] using hs⟩
      | use =>
        left
        have hst : ¬ (st = .connected) := by rcases hs with rfl | rfl <;> decide
        exact ⟨⟨true, st, none, [], nx⟩, by simp [step, use, hst], by simpa [Inv] using hs⟩
      | destroy =>
        left
        have hst : ¬ (st = .connected ∨ st = .connecting) := by rcases hs with rfl | rfl <;> decide
        exact ⟨⟨false, st, none, [], nx⟩, by simp only [step, destroy, if_true, hst, if_false, Res.bind_ok], by simp [Inv]⟩
    · subst hh hc
      cases o with
      | net j r =>
        by_cases hj : j ∈ [k]
        · left
          cases r with
          | established => exact ⟨⟨true, .connected, some k, [k], nx⟩, by simp [step, net, deref, List.mem_singleton.1 hj], by simp [Inv]⟩
          | receive => exact ⟨⟨true, st, some k, [k], nx⟩, by simp [step, net, deref, List.mem_singleton.1 hj], by
              simp only [Inv, if_true]; exact .inr ⟨k, rfl, rfl, by simpa [lost] using hs⟩⟩
          | lost a => exact ⟨⟨true, if a then .connecting else .disconnected, some k, [k], nx⟩,
              by simp [step, net, deref, List.mem_singleton.1 hj], by simp [Inv, lost]⟩
          | other => exact ⟨⟨true, st, some k, [k], nx⟩, by simp [step, net, List.mem_singleton.1 hj], by
              simp only [Inv, if_true]; exact .inr ⟨k, rfl, rfl, by simpa [lost] using hs⟩⟩
        · right; exact ⟨.invalidParam, by simp only [step, if_neg hj]⟩
      | connect c =>
        left
        have hl := h2 (.inl ⟨c, rfl⟩)
        have hst : st = .connected ∨ st = .connecting := by
          rcases hs with h | h
          · rw [hl] at h; cases h
          · exact h
        exact ⟨⟨true, st, some k, [k], nx⟩, by simp only [step, if_true, connect, if_pos hst], by
          simp only [Inv, if_true]; exact .inr ⟨k, rfl, rfl, by simpa [lost] using hs⟩⟩
      | setCallback => left; exact ⟨⟨true, st, some k, [k], nx⟩, by simp [step, setCallback, deref], by
          simp only [Inv, if_true]; exact .inr ⟨k, rfl, rfl, by simpa [lost] using hs⟩⟩
      | disconnect => left; exact ⟨⟨true, .disconnected, none, [], nx⟩, by simp [step, disconnect], by simp [Inv]⟩
      | use =>
        left
        refine ⟨⟨true, st, some k, [k], nx⟩, ?_, ?_⟩
        · simp only [step, use, if_true]
          split
          · simp [deref]
          · rfl
        · simp only [Inv, if_true]; exact .inr ⟨k, rfl, rfl, by simpa [lost] using hs⟩
      | destroy =>
        left
        have hl := h2 (.inr rfl)
        have hst : st = .connected ∨ st = .connecting := by
          rcases hs with h | h
          · rw [hl] at h; cases h
          · exact h
        exact ⟨⟨false, .disconnected, none, [], nx⟩, by simp [step, destroy, disconnect, hst], by simp [Inv]⟩

theorem lost_append (a b : List Op) (l : Bool) : lost (a ++ b) l = lost b (lost a l) := by
  induction a generalizing l with
  | nil => rfl
  | cons o a ih =>
    cases o with
    | net k r => cases r <;> exact ih _
    | connect c => exact ih _
    | setCallback => exact ih _
    | disconnect => exact ih _
    | use => exact ih _
    | destroy => exact ih _

/-- C36, the part that holds: in every careful run no freed object is touched, and once the relay is destroyed no
context and no service thread is left. -/
theorem C36_careful_partial (os : List Op) (h : Careful os) :
    run created os ≠ .ub ∧ ∀ w, run created os = .ok w → w.relay = false → w.ctxs = [] := by
  have key : ∀ (os pre : List Op) (w : World), Inv (lost pre false) w → Careful (pre ++ os) →
      run w os ≠ .ub ∧ ∀ w', run w os = .ok w' → w'.relay = false → w'.ctxs = [] := by
    intro os
    induction os with
    | nil =>
      intro pre w hi _
      refine ⟨by simp [run], ?_⟩
      intro w' hw hr
      simp only [run, Res.ok.injEq] at hw
      subst hw
      simpa [Inv, hr] using hi
    | cons o os ih =>
      intro pre w hi hc
      obtain ⟨h1, h2⟩ := hc pre o os rfl
      rcases step_inv hi h1 h2 with ⟨w', hw, hi'⟩ | ⟨e, he⟩
      · rw [run, hw]
        simp only [Res.bind_ok]
        exact ih (pre ++ [o]) w' (by rw [lost_append]; exact hi') (by simpa using hc)
      · rw [run, he]
        simp
  exact key os [] created (by simp [Inv, created, lost]) h

example : Careful [.connect .ok, .net 0 .established, .use, .net 0 .receive, .net 0 (.lost false), .disconnect, .connect .thread,
    .setCallback, .connect .ok, .net 2 .established, .destroy] ∧
    run created [.connect .ok, .net 0 .established, .use, .net 0 .receive, .net 0 (.lost false), .disconnect, .connect .thread,
    .setCallback, .connect .ok, .net 2 .established, .destroy] = .ok ⟨false, .disconnected, none, [], 3⟩ := by
  refine ⟨?_, by decide⟩
  have : ∀ i < 11, ∀ o ∈ ([.connect .ok, .net 0 .established, .use, .net 0 .receive, .net 0 (.lost false), .disconnect,
      .connect .thread, .setCallback, .connect .ok, .net 2 .established, .destroy] : List Op)[i]?,
      o ≠ .connect .client ∧ ((match o with | .connect _ => true | .destroy => true | _ => false) = true →
        lost (([.connect .ok, .net 0 .established, .use, .net 0 .receive, .net 0 (.lost false), .disconnect,
      .connect .thread, .setCallback, .connect .ok, .net 2 .established, .destroy] : List Op).take i) false = false) := by decide
  intro pre o post e
  have hl := congrArg List.length e
  simp only [List.length_append, List.length_cons, List.length_nil] at hl
  obtain ⟨h1, h2⟩ := this pre.length (by omega) o (by rw [e]; simp)
  refine ⟨h1, fun h => ?_⟩
  have h3 := h2 (by rcases h with ⟨c, rfl⟩ | rfl <;> rfl)
  rw [e] at h3
  simpa using h3

/-- C36 is false: after a client connection attempt that fails at once the relay keeps a pointer to the freed
context, and setting the message callback or disconnecting uses it. -/
theorem C36_failed_connect_refuted :
    run created [.connect .client, .setCallback] = .ub ∧ run created [.connect .client, .disconnect] = .ub :=
  ⟨by decide, by decide⟩

/-- C36 is false: destroying a relay whose connection was lost leaves its service thread running, whose next
callback reads the freed relay. -/
theorem C36_destroy_refuted :
    run created [.connect .ok, .net 0 (.lost false), .destroy, .net 0 .other] = .ub := by decide

/-- Connecting again after a loss leaves the old context and its thread behind for good. -/
theorem C36_reconnect_leak_refuted :
    ∃ w, run created [.connect .ok, .net 0 (.lost false), .connect .ok, .disconnect, .destroy] = .ok w ∧
      w.relay = false ∧ w.ctxs ≠ [] := ⟨⟨false, .disconnected, none, [0], 2⟩, by decide, by decide, by decide⟩

/-! ## C93: the list of subscriptions is shared between threads -/

/-- The linked list of subscriptions (relay.c:53-58): nodes in order, with their ids. -/
structure Shared where
  /-- node and subscription id, from the head on -/
  nodes : List (Nat × Bytes)
  /-- the service thread is looking for this id and is about to read this node (relay.c:615-632) -/
  cur : Option (Bytes × Nat)
  /-- the next node to be allocated -/
  fresh : Nat
  deriving DecidableEq, Repr

/-- Steps of the two threads. -/
inductive Act
  /-- relay.c:455-459, application thread -/
  | subscribe (id : Bytes)
  /-- relay.c:522-532, application thread -/
  | unsubscribe (id : Bytes)
  /-- relay.c:615: an EVENT for this id arrives, service thread -/
  | arrive (id : Bytes)
  /-- relay.c:616-632: the service thread reads the node -/
  | look
  deriving DecidableEq, Repr

/-- Unlink and free the first node with this id. -/
def unlink (id : Bytes) : List (Nat × Bytes) → List (Nat × Bytes)
  | [] => []
  | n :: ns => if n.2 = id then ns else n :: unlink id ns

/-- The node after this one. -/
def succ? (k : Nat) : List (Nat × Bytes) → Option Nat
  | [] => none
  | n :: ns => if n.1 = k then ns.head?.map (·.1) else succ? k ns

/-- One step; reading a node that has been freed is undefined. There is no lock around any of them. -/
def act (s : Shared) : Act → Res Shared
  | .subscribe id => .ok { s with nodes := (s.fresh, id) :: s.nodes, fresh := s.fresh + 1 }
  | .unsubscribe id => .ok { s with nodes := unlink id s.nodes }
  | .arrive id => .ok { s with cur := s.nodes.head?.map fun n => (id, n.1) }
  | .look => match s.cur with
      | none => .ok s
      | some (id, k) => match s.nodes.find? (fun n => decide (n.1 = k)) with
          | none => .ub
          | some n => if n.2 = id then .ok { s with cur := none }
              else .ok { s with cur := (succ? k s.nodes).map fun j => (id, j) }

/-- A run of both threads. -/
def acts : Shared → List Act → Res Shared
  | s, [] => .ok s
  | s, a :: as => act s a >>= fun s => acts s as

/-- The list before the first subscription. -/
def noSubs : Shared := ⟨[], none, 0⟩

/-- C93 is false: the service thread reads a node that the application thread has just freed. -/
theorem C93_race_refuted : acts noSubs [.subscribe (c!"a"), .arrive (c!"a"), .unsubscribe (c!"a"), .look] = .ub := by
  decide

/-- Specification: the application ends no subscription while the service thread is walking the list. -/
def Exclusive (s : Shared) : List Act → Prop
  | [] => True
  | a :: as => (match a with | .unsubscribe _ => s.cur = none | _ => True) ∧ ∀ s', act s a = .ok s' → Exclusive s' as

theorem succ?_mem {k j : Nat} {ns : List (Nat × Bytes)} (h : succ? k ns = some j) : ∃ n ∈ ns, n.1 = j := by
  induction ns with
  | nil => simp [succ?] at h
  | cons n ns ih =>
    simp only [succ?] at h
    split at h
    · obtain ⟨m, hm, rfl⟩ := Option.map_eq_some_iff.1 h
      cases ns with
      | nil => simp at hm
      | cons a ns => simp at hm; exact ⟨a, by simp, by rw [hm]⟩
    · obtain ⟨m, hm, e⟩ := ih h
      exact ⟨m, by simp [hm], e⟩

/-- C93, the part that holds: if no subscription is ended while the service thread walks the list (subscribing is
harmless), no freed node is read, whatever the interleaving. -/
theorem C93_exclusive_partial (as : List Act) (h : Exclusive noSubs as) : acts noSubs as ≠ .ub := by
  have key : ∀ (as : List Act) (s : Shared), (∀ id k, s.cur = some (id, k) → ∃ n ∈ s.nodes, n.1 = k) → Exclusive s as →
      acts s as ≠ .ub := by
    intro as
    induction as with
    | nil => intro s _ _; simp [acts]
    | cons a as ih =>
      intro s hs hx
      obtain ⟨h1, h2⟩ := hx
      have : ∃ s', act s a = .ok s' ∧ ∀ id k, s'.cur = some (id, k) → ∃ n ∈ s'.nodes, n.1 = k := by
        cases a with
        | subscribe id =>
          refine ⟨_, rfl, ?_⟩
          intro id' k hk
          obtain ⟨n, hn, e⟩ := hs id' k hk
          exact ⟨n, by simp [hn], e⟩
        | unsubscribe id =>
          refine ⟨_, rfl, ?_⟩
          intro id' k hk
          simp only at h1 hk
          rw [h1] at hk
          cases hk
        | arrive id =>
          refine ⟨_, rfl, ?_⟩
          intro id' k hk
          obtain ⟨n, hn, e⟩ := Option.map_eq_some_iff.1 hk
          simp only [Prod.mk.injEq] at e
          exact ⟨n, List.mem_of_mem_head? hn, e.2⟩
        | look =>
          simp only [act]
          cases hc : s.cur with
          | none => exact ⟨s, rfl, hs⟩
          | some q =>
            obtain ⟨id, k⟩ := q
            obtain ⟨n, hn, e⟩ := hs id k hc
            cases hf : s.nodes.find? (fun n => decide (n.1 = k)) with
            | none =>
              have := List.find?_eq_none.1 hf n hn
              simp [e] at this
            | some m =>
              simp only [hf]
              by_cases hm : m.2 = id
              · rw [if_pos hm]
                exact ⟨_, rfl, by intro _ _ h; simp at h⟩
              · rw [if_neg hm]
                refine ⟨_, rfl, ?_⟩
                intro id' j hj
                obtain ⟨j', hj', e'⟩ := Option.map_eq_some_iff.1 hj
                simp only [Prod.mk.injEq] at e'
                obtain ⟨-, rfl⟩ := e'
                exact succ?_mem hj'
      obtain ⟨s', hs', hi⟩ := this
      rw [acts, hs']
      simp only [Res.bind_ok]
      exact ih s' hi (h2 s' hs')
  exact key as noSubs (by simp [noSubs]) h

example : Exclusive noSubs [.subscribe (c!"a"), .subscribe (c!"b"), .arrive (c!"a"), .look, .subscribe (c!"c"), .look,
    .unsubscribe (c!"a"), .arrive (c!"a"), .look] := by
  simp [Exclusive, act, noSubs, unlink, succ?]

end Nostr.Relay.Life
