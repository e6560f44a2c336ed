import Verif.Own.Basic
import Verif.Own.Signer
import Verif.Nip51.Props
import Verif.Nip46.Props

/-! # Property theorems: memory of remote signing requests (C157) -/

namespace Nostr.Own.Signer.Props
open Nostr Nostr.Heap Nostr.Own Nostr.Own.Signer Nostr.Nip46 Nostr.Json

/-! ## Specification -/

/-- The structure and its block hold the request `v`. -/
structure Holds (m : Mem) (q : HReq) (v : Request) : Prop where
  id : q.id = v.id
  method : q.method = v.method
  sender : q.sender = v.sender
  params : (q.params = none ∧ v.params = none) ∨ ∃ p t, q.params = some p ∧ v.params = some t ∧ m p = some (.str t) ∧ q.len = t.length

/-- Compared with `h0`, the memory `m` has exactly the block of the request more, and it holds `v`. -/
def Has (h0 m : Mem) (q : HReq) (v : Request) : Prop := Holds m q v ∧ Owned h0 m q.params.toList

/-- Freeing the request restores the memory `h0`; freeing it once more does nothing. -/
def Frees (h0 : Mem) (q : HReq) (h : Heap) : Prop :=
  ∃ q' h', freeRequest q h = some (q', h') ∧ h'.mem = h0 ∧ freeRequest q' h' = some (q', h')

/-! ## Lemmas -/

theorem frees {h0 : Mem} {q : HReq} {h : Heap} (o : Owned h0 h.mem q.params.toList) : Frees h0 q h := by
  unfold Frees freeRequest
  cases hp : q.params with
  | none =>
    rw [hp] at o
    refine ⟨q, h, rfl, Owned.eq o, ?_⟩
    rw [hp]; rfl
  | some p =>
    rw [hp] at o
    obtain ⟨h1, e1, o1, -⟩ := freeP (p := some p) (b := []) (by simpa using o)
    refine ⟨{ q with params := none, len := 0 }, h1, ?_, o1.eq, rfl⟩
    simp only [M.bind, e1, Option.bind_some, M.pure]

/-! ## C157 -/

/-- C157: reading a request of a client, whoever made the event. When a request is reported as read, it is the request in
the event and the memory has exactly the block of its parameters more; on failure nothing is left behind. In both cases
freeing the request gives back the memory as it was, any number of times. Missing: the parameters, which are
left out when memory for them is refused (`C157_params_refuted`). -/
theorem C157_request_partial {A : Alloc} (hA : Fresh A) {E : Nip47.Env} (hcfg : Nip44.Spec.CfgOK E.cfg) (r : Bytes → Json) (e : Event.Event) (sk : Bytes) (h : Heap) :
    (∃ q v h', parseRequest A E r e sk h = some ((none, q), h') ∧ Nip46.parseRequest E r e sk = .ok v ∧
      (Has h.mem h'.mem q v ∨ (Has h.mem h'.mem q { v with params := none } ∧ Refused A h.mem)) ∧ Frees h.mem q h') ∨
    ∃ x q h', parseRequest A E r e sk h = some ((some x, q), h') ∧ h'.mem = h.mem ∧ Frees h.mem q h' ∧
      (Nip46.parseRequest E r e sk = .err x ∨ (x = .memory ∧ Refused A h.mem)) := by
  have fr : ∀ {q : HReq} {h' : Heap}, q.params = none → h'.mem = h.mem → Frees h.mem q h' := by
    intro q h' hq hm
    refine frees ?_
    rw [hq, hm]; exact Owned.nil _
  unfold parseRequest Nip46.parseRequest
  by_cases hk : e.kind ≠ kind46
  · rw [if_pos hk, if_pos hk]; exact .inr ⟨_, _, h, rfl, rfl, fr rfl rfl, .inl rfl⟩
  rw [if_neg hk, if_neg hk]
  cases e.content with
  | none => exact .inr ⟨_, _, h, rfl, rfl, fr rfl rfl, .inl rfl⟩
  | some t =>
    simp only
    cases hd : Nip44.decrypt E.nc E.b64 E.cfg sk e.pubkey t with
    | ub => exact absurd hd (Nip51.Props.decrypt_noub hcfg sk e.pubkey t)
    | err x => exact .inr ⟨_, _, h, rfl, rfl, fr rfl rfl, .inl rfl⟩
    | ok d =>
      simp only [Res.bind_ok]
      rcases allocP hA (Owned.nil h.mem) (.str d) with ⟨h1, e1, m1, f1⟩ | ⟨p, h1, e1, v1, o1, -⟩
      · right
        refine ⟨.memory, { sender := e.pubkey }, h1, ?_, m1, fr rfl m1, .inr ⟨rfl, f1⟩⟩
        simp only [M.bind, e1, Option.bind_some, M.pure]
      · have e2 : loadStr p h1 = some (d, h1) := by simp only [loadStr, v1]
        obtain ⟨h3, e3, o3, -⟩ := freeP (p := some p) (b := []) o1
        have m3 := o3.eq
        simp only [M.bind, e1, e2, e3, Option.bind_some]
        unfold requestOf
        cases parse (cstr d) with
        | none => exact .inr ⟨_, _, h3, rfl, m3, fr rfl m3, .inl rfl⟩
        | some root =>
          left
          simp only
          unfold readParams
          cases hp : (get root (c!"params")).map (reprint r) with
          | none =>
            refine ⟨_, _, h3, rfl, rfl, .inl ⟨⟨rfl, rfl, rfl, .inl ⟨rfl, rfl⟩⟩, ?_⟩, fr rfl m3⟩
            rw [m3]; exact Owned.nil _
          | some s =>
            simp only
            rcases allocP hA o3 (.str s) with ⟨h4, e4, m4, f4⟩ | ⟨b, h4, e4, v4, o4, -⟩
            · refine ⟨{ id := field 64 root (c!"id"), method := field 31 root (c!"method"), sender := e.pubkey }, _, h4, ?_, rfl, .inr ⟨⟨⟨rfl, rfl, rfl, .inl ⟨rfl, rfl⟩⟩, ?_⟩, f4⟩, fr rfl (m4.trans m3)⟩
              · simp only [M.bind, e4, Option.bind_some, M.pure]
              · rw [m4, m3]; exact Owned.nil _
            · refine ⟨{ id := field 64 root (c!"id"), method := field 31 root (c!"method"), params := some b, len := s.length, sender := e.pubkey }, _, h4, ?_, rfl,
                .inl ⟨⟨rfl, rfl, rfl, .inr ⟨b, s, rfl, rfl, v4, rfl⟩⟩, o4⟩, frees o4⟩
              simp only [M.bind, e4, Option.bind_some, M.pure]

/-- Addresses one after the other; the allocations from `k` on fail. -/
def upTo (k : Nat) : Alloc := fun m n => if n < k ∧ m n = none then some n else none

theorem upTo_fresh (k : Nat) : Fresh (upTo k) := by
  intro m n a h
  unfold upTo at h
  split at h
  · rename_i hx; simp only [Option.some.injEq] at h; rw [← h]; exact hx.2
  · simp at h

/-- Empty memory. -/
def start : Heap := ⟨fun _ => none, 0⟩

/-- C157 fails: any request with parameters is reported as read without its parameters when memory for them is refused. -/
theorem C157_params_refuted {E : Nip47.Env} {r : Bytes → Json} {e : Event.Event} {sk : Bytes} {v : Request} (hv : Nip46.parseRequest E r e sk = .ok v)
    (hp : v.params ≠ none) : ∃ A, Fresh A ∧ ∃ q h', parseRequest A E r e sk start = some ((none, q), h') ∧ q.method = v.method ∧ q.params = none := by
  refine ⟨upTo 1, upTo_fresh 1, ?_⟩
  unfold Nip46.parseRequest at hv
  unfold parseRequest
  by_cases hk : e.kind ≠ kind46
  · rw [if_pos hk] at hv; simp at hv
  rw [if_neg hk] at hv
  rw [if_neg hk]
  cases hc : e.content with
  | none => rw [hc] at hv; simp at hv
  | some t =>
    rw [hc] at hv
    simp only at hv ⊢
    cases hd : Nip44.decrypt E.nc E.b64 E.cfg sk e.pubkey t with
    | ub => rw [hd] at hv; simp at hv
    | err x => rw [hd] at hv; simp at hv
    | ok d =>
      rw [hd] at hv
      simp only [Res.bind_ok] at hv ⊢
      unfold requestOf at hv
      have e1 : alloc (upTo 1) (.str d) start = some (some 0, ⟨upd start.mem 0 (some (.str d)), 1⟩) := rfl
      have e2 : loadStr 0 ⟨upd start.mem 0 (some (.str d)), 1⟩ = some (d, ⟨upd start.mem 0 (some (.str d)), 1⟩) := rfl
      have e3 : free (some 0) ⟨upd start.mem 0 (some (.str d)), 1⟩ = some ((), ⟨upd (upd start.mem 0 (some (.str d))) 0 none, 1⟩) := rfl
      simp only [M.bind, e1, e2, e3, Option.bind_some]
      cases hj : parse (cstr d) with
      | none => rw [hj] at hv; simp at hv
      | some root =>
        rw [hj] at hv
        simp only [Res.ok.injEq] at hv
        subst hv
        simp only at hp ⊢
        cases hg : (get root (c!"params")).map (reprint r) with
        | none => exact absurd hg hp
        | some s => exact ⟨_, _, rfl, rfl, rfl⟩

/-- C157: freeing a response releases its result and its error, if these are blocks of their own, and freeing it once more
does nothing. -/
theorem C157_response {h0 : Mem} {h : Heap} {result error : Option Nat} (o : Owned h0 h.mem (result.toList ++ error.toList)) :
    ∃ q h', freeResponse (result, error) h = some (q, h') ∧ h'.mem = h0 ∧ freeResponse q h' = some (q, h') := by
  obtain ⟨h1, e1, o1, -⟩ := freeP o
  obtain ⟨h2, e2, o2, -⟩ := freeP (p := error) (b := []) (by simpa using o1)
  refine ⟨(none, none), h2, ?_, o2.eq, rfl⟩
  simp only [freeResponse, M.bind, e1, e2, Option.bind_some, M.pure]

/-! ## Cases -/

/-- The hypotheses of `C157_params_refuted` are met: a request with parameters that is read. -/
example : (Nip46.Props.sample >>= fun ct => Nip46.parseRequest Nip47.Props.sumEnv (fun t => .num t)
    { Event.zero with kind := 24133, pubkey := List.replicate 32 7, content := some ct } (List.replicate 32 5)) =
    .ok ⟨c!"a1", c!"connect", some (c!"[\"k\",\"s\"]"), List.replicate 32 7⟩ := by
  decide +kernel

example : Owned start.mem (upd start.mem 3 (some (.str c!"ok"))) ((some 3).toList ++ (none : Option Nat).toList) :=
  Owned.new (Owned.nil _) rfl _

/-- The last step of reading, then freeing twice: the number of characters, and whether the memory is as before. -/
def tail (k : Nat) : Option (Nat × Bool) :=
  match readParams (upTo k) {} (some c!"[\"x\"]") start with
  | some ((_, q), h1) => match freeRequest q h1 with
    | some (q', h2) => match freeRequest q' h2 with
      | some (_, h3) => some (q.len, (List.range 5).all fun a => (h3.mem a).isNone)
      | none => none
    | none => none
  | none => none

example : tail 4 = some (5, true) := by decide +kernel

example : tail 0 = some (0, true) := by decide +kernel

end Nostr.Own.Signer.Props
