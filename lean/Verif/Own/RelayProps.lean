import Verif.Own.RelayLemmas

/-! # Property theorems: the memory of a relay connection (C166)

`Verif/Own/RelaySpec.lean` says what the application sees. -/

namespace Nostr.Own.Relay.Props
open Nostr Nostr.Heap Nostr.Event Nostr.Json Nostr.Own Nostr.Own.Ev Nostr.Own.Relay
open Nostr.Relay (Sub Call Rx NSub)
open Nostr.Relay.Life (St)

/-! ## Connections -/

/-- The relay is not connected: it can be connected or destroyed. -/
def Idle (w : Relay) : Prop := w.state = .disconnected ∨ w.state = .error

/-- What is left behind by a connection that was refused: the mutex. -/
def stays (url : Bytes) (l : Link) : Nat := if (Nostr.Relay.resolve true url).isOk ∧ l = .refused then 1 else 0

theorem resolve_cases (url : Bytes) : (∃ t, Nostr.Relay.resolve true url = .ok t) ∨ Nostr.Relay.resolve true url = .err .invalidParam := by
  unfold Nostr.Relay.resolve
  rw [if_neg (by simp)]
  split
  · exact .inl ⟨_, rfl⟩
  · split
    · exact .inl ⟨_, rfl⟩
    · exact .inr rfl

/-- A failed connection. -/
structure Failed (A : Alloc) (url : Bytes) (l : Link) (h : Heap) (w : Relay) (h' : Heap) (w' : Relay) : Prop where
  mem : ∃ left, Owned h.mem h'.mem left ∧ left.length ≤ stays url l ∧ (Refused A h.mem ∨ left.length = stays url l)
  idle : Idle w'
  self : w'.self = w.self
  addr : w'.url = w.url
  cb : w'.msgCb = w.msgCb
  log : w'.log = w.log
  why : Refused A h.mem ∨ ¬ ((Nostr.Relay.resolve true url).isOk = true ∧ l = .up)

theorem connect_ok {E : Env} (hE : Fresh E.A) (hs : ∀ log, .disconnect ∉ E.app log) (l : Link) {h : Heap} {w : Relay} {v : Spec.View}
    {url : Bytes} (hi : Idle w) (hu : h.mem w.url = some (.str url)) (hcb : Refused E.A h.mem ∨ (w.msgCb = v.cb ∧ w.log = v.log)) :
    (connect E l w h = none ∧ Refused E.A h.mem) ∨
    (∃ w' h', connect E l w h = some ((false, w'), h') ∧ Failed E.A url l h w h' w') ∨
    (∃ c w' h', connect E l w h = some ((true, w'), h') ∧ l = .up ∧ (Nostr.Relay.resolve true url).isOk = true ∧
      Up E.A h.mem c [] h' w' (Spec.callback E.app (.state .connecting) { v with subs := [], state := .connecting, rx := Rx.new }) ∧
      w'.self = w.self ∧ w'.url = w.url) := by
  unfold connect
  rw [if_neg (by rcases hi with h | h <;> simp [h])]
  rcases allocP hE (Owned.nil h.mem) blob with ⟨h1, e1, m1, f1⟩ | ⟨cx, h1, e1, -, o1, k1⟩
  · rw [bind_at e1]
    exact .inr (.inl ⟨w, h1, rfl, ⟨[], by rw [m1]; exact .nil _, by simp, .inl f1⟩, hi, rfl, rfl, rfl, rfl, .inl f1⟩)
  · rw [bind_at e1]
    simp only
    have hun : ∀ own : List Nat, (∀ a ∈ own, h.mem a = none) → w.url ∉ own := fun own hf hm => by
      have := hf _ hm; rw [hu] at this; simp at this
    have hu1 : h1.mem w.url = some (.str url) := by rw [o1.same _ (hun _ o1.fresh), hu]
    rw [bind_at (loadStr_at hu1)]
    rcases allocP hE o1 (.str url) with ⟨h2, e2, m2, f2⟩ | ⟨cp, h2, e2, -, o2, k2⟩
    · rw [bind_at e2]; exact .inl ⟨rfl, f2⟩
    · rw [bind_at e2]
      simp only
      rcases resolve_cases url with ⟨t, ht⟩ | ht
      · rw [ht]
        simp only
        rcases allocP hE o2 (.ptrs [none, none, w.msgCb, some cx, none]) with ⟨h3, e3, m3, f3⟩ | ⟨c, h3, e3, c3, o3, k3⟩
        · rw [bind_at e3]
          obtain ⟨h4, e4, o4, k4⟩ := freeP (p := some cp) (b := [cx]) (h := h3) (by rw [m3]; exact o2)
          obtain ⟨h5, e5, o5, k5⟩ := freeP (p := some cx) (b := []) o4
          simp only
          rw [bind_at e4, bind_at e5]
          exact .inr (.inl ⟨w, h5, rfl, ⟨[], o5, by simp, .inl f3⟩, hi, rfl, rfl, rfl, rfl, .inl f3⟩)
        · rw [bind_at e3]
          simp only
          rcases allocP hE o3 blob with ⟨h4, e4, m4, f4⟩ | ⟨mx, h4, e4, -, o4, k4⟩
          · rw [bind_at e4]
            obtain ⟨h5, e5, o5, k5⟩ := freeP (p := some cp) (b := [c, cx]) (h := h4) (by
              rw [m4]; exact o3.perm (List.Perm.swap _ _ _))
            obtain ⟨h6, e6, o6, k6⟩ := freeP (p := some c) (b := [cx]) o5
            obtain ⟨h7, e7, o7, k7⟩ := freeP (p := some cx) (b := []) o6
            simp only
            rw [bind_at e5, bind_at e6, bind_at e7]
            exact .inr (.inl ⟨_, h7, rfl, ⟨[], o7, by simp, .inl f4⟩, .inr rfl, rfl, rfl, rfl, rfl, .inl f4⟩)
          · rw [bind_at e4]
            simp only
            have c4 : h4.mem c = _ := (k4 c (by simp)).trans c3
            rw [bind_at (storePtr_at (i := 4) c4 (by simp))]
            have o5 := o4.write (c := c) (by simp) (.ptrs ([none, none, w.msgCb, some cx, none].set 4 (some mx)))
            obtain ⟨h6, e6, o6, k6⟩ := freeP (p := some cp) (b := [mx, c, cx])
              (h := ⟨upd h4.mem c (some (.ptrs ([none, none, w.msgCb, some cx, none].set 4 (some mx)))), h4.tick⟩) (o5.perm (by
                simpa using (List.perm_middle (l₁ := [mx, c]) (l₂ := [cx]) (a := cp))))
            have hm6 : h6.mem c = some (.ptrs [none, none, w.msgCb, some cx, some mx]) := by
              rw [k6 c (by simp)]; simp
            unfold launch
            cases l with
            | refused =>
              obtain ⟨h7, e7, o7, k7⟩ := freeP (p := some c) (b := [mx, cx]) (o6.perm (List.Perm.swap _ _ _))
              obtain ⟨h8, e8, o8, k8⟩ := freeP (p := some cx) (b := [mx]) (o7.perm (List.Perm.swap _ _ _))
              simp only
              rw [bind_at e6, bind_at e7, bind_at e8]
              refine .inr (.inl ⟨_, h8, rfl, ⟨[mx], o8, ?_, .inr ?_⟩, .inr rfl, rfl, rfl, rfl, rfl, .inr (by simp)⟩) <;>
                simp [stays, ht, Res.isOk]
            | noThread =>
              obtain ⟨h7, e7, o7, k7⟩ := freeP (p := some mx) (b := [c, cx]) o6
              obtain ⟨h8, e8, o8, k8⟩ := freeP (p := some cx) (b := [c]) (o7.perm (List.Perm.swap _ _ _))
              obtain ⟨h9, e9, o9, k9⟩ := freeP (p := some c) (b := []) o8
              simp only
              rw [bind_at e6, bind_at e7, bind_at e8, bind_at e9]
              exact .inr (.inl ⟨_, h9, rfl, ⟨[], o9, by simp, .inr (by simp [stays])⟩, .inr rfl, rfl, rfl, rfl, rfl, .inr (by simp)⟩)
            | up =>
              simp only
              rw [bind_at e6]
              have g : Good E.A h.mem c none [] h6 { w with handle := some c, state := .connecting, rx := Rx.new }
                  { v with subs := [], state := .connecting, rx := Rx.new } :=
                ⟨rfl, [], [c, cx, mx], ⟨none, cx, mx, [], hm6, .nil, rfl⟩, o6.perm (by
                  simpa using (List.perm_middle (l₁ := [c, cx]) (l₂ := []) (a := mx)).symm), by simp, by simp,
                  hcb.imp_right fun a => ⟨rfl, rfl, a.1, rfl, a.2⟩⟩
              have s := callback_ok hE hs (.state .connecting) g
              cases hm : callback E (.state .connecting) { w with handle := some c, state := .connecting, rx := Rx.new } h6 with
              | none => exact .inl ⟨by unfold M.bind; rw [hm]; rfl, s.ub hm⟩
              | some r =>
                obtain ⟨w', h'⟩ := r
                obtain ⟨g', k'⟩ := s.ok _ _ hm
                rw [bind_at hm]
                refine .inr (.inr ⟨c, w', h', rfl, trivial, by simp [Res.isOk, ht], ⟨none, g', ?_, fun _ => ?_⟩, k'.self, k'.url⟩)
                · rw [k'.rx]; exact ⟨.inr ⟨rfl, rfl⟩, Nat.zero_le _⟩
                · rw [k'.rx]; rfl
      · rw [ht]
        simp only
        obtain ⟨h4, e4, o4, k4⟩ := freeP (p := some cp) (b := [cx]) o2
        obtain ⟨h5, e5, o5, k5⟩ := freeP (p := some cx) (b := []) o4
        rw [bind_at e4, bind_at e5]
        exact .inr (.inl ⟨w, h5, rfl, ⟨[], o5, by simp, .inr (by simp [stays, ht, Res.isOk])⟩, hi, rfl, rfl, rfl, rfl,
          .inr (by simp [ht, Res.isOk])⟩)

/-- A whole connection. -/
theorem session_ok {E : Env} (hE : Fresh E.A) (hs : ∀ log, .disconnect ∉ E.app log) (l : Link) {os : List Op}
    (ho : Op.act .disconnect ∉ os) {h : Heap} {w : Relay} {v : Spec.View} {url : Bytes} (hi : Idle w)
    (hu : h.mem w.url = some (.str url)) (hcb : Refused E.A h.mem ∨ (w.msgCb = v.cb ∧ w.log = v.log)) :
    (session E l os w h = none ∧ Refused E.A h.mem) ∨
    ∃ w' h' left, session E l os w h = some (w', h') ∧ Owned h.mem h'.mem left ∧ left.length ≤ stays url l ∧ Idle w' ∧
      w'.self = w.self ∧ w'.url = w.url ∧
      (Refused E.A h.mem ∨ (left.length = stays url l ∧
        w'.msgCb = (Spec.session E url (l, os) v).cb ∧ w'.log = (Spec.session E url (l, os) v).log)) := by
  unfold session
  rcases connect_ok hE hs l hi hu hcb with ⟨e, f⟩ | ⟨w', h', e, f⟩ | ⟨c, w', h', e, rfl, hr, g, h1, h2⟩
  · exact .inl ⟨by unfold M.bind; rw [e]; rfl, f⟩
  · rw [bind_at e]
    obtain ⟨left, o, hl, hx⟩ := f.mem
    refine .inr ⟨w', h', left, rfl, o, hl, f.idle, f.self, f.addr, ?_⟩
    rcases hx with hx | hx
    · exact .inl hx
    · rcases f.why with fw | fw
      · exact .inl fw
      · rcases hcb with hcb | hcb
        · exact .inl hcb
        · refine .inr ⟨hx, ?_⟩
          unfold Spec.session
          rw [if_neg fw, f.cb, f.log]
          exact hcb
  · rw [bind_at e]
    simp only [if_true]
    have s := ops_ok hE hs os (fun o h e => ho (e ▸ h)) g
    cases hm : ops E os w' h' with
    | none => exact .inl ⟨by unfold M.bind; rw [hm]; rfl, s.ub hm⟩
    | some r =>
      obtain ⟨w2, h2'⟩ := r
      obtain ⟨⟨recv, g2, -⟩, -, k1, k2⟩ := s.ok _ _ hm
      rw [bind_at hm]
      obtain ⟨h3, e3, o3, -⟩ := disconnect_ok g2
      refine .inr ⟨_, h3, [], e3, o3, by simp, .inl rfl, k1.trans h1, k2.trans h2, ?_⟩
      obtain ⟨-, ns, bl, -, -, -, -, a⟩ := g2
      refine a.imp_right fun a => ⟨by simp [stays], ?_⟩
      unfold Spec.session
      rw [if_pos ⟨hr, rfl⟩]
      exact ⟨a.cb, a.log⟩

theorem sessions_ok {E : Env} (hE : Fresh E.A) (hs : ∀ log, .disconnect ∉ E.app log) {h0 : Mem} {url : Bytes} (ss : List (Link × List Op)) :
    ∀ {h : Heap} {w : Relay} {v : Spec.View} {left : List Nat}, (∀ s ∈ ss, Op.act .disconnect ∉ s.2) → Idle w →
    h.mem w.url = some (.str url) → Owned h0 h.mem (w.url :: w.self :: left) →
    (Refused E.A h0 ∨ (w.msgCb = v.cb ∧ w.log = v.log)) →
    (sessions E ss w h = none ∧ Refused E.A h0) ∨
    ∃ w' h' left', sessions E ss w h = some (w', h') ∧ Owned h0 h'.mem (w'.url :: w'.self :: left') ∧
      left'.length ≤ left.length + Spec.refused url ss ∧ Idle w' ∧
      (Refused E.A h0 ∨ (left'.length = left.length + Spec.refused url ss ∧
        w'.log = (ss.foldl (fun v s => Spec.session E url s v) v).log)) := by
  induction ss with
  | nil =>
    intro h w v left _ hi hu o hcb
    exact .inr ⟨w, h, left, rfl, o, by simp [Spec.refused], hi, hcb.imp_right fun a => ⟨by simp [Spec.refused], a.2⟩⟩
  | cons s ss ih =>
    intro h w v left hd hi hu o hcb
    have hb : Refused E.A h.mem → Refused E.A h0 := fun f => f.back o.same
    have hst : Spec.refused url (s :: ss) = stays url s.1 + Spec.refused url ss := by
      unfold Spec.refused stays
      by_cases hr : (Nostr.Relay.resolve true url).isOk = true <;> by_cases hl : s.1 = .refused <;> simp [hr, hl, List.countP_cons]
      omega
    unfold sessions
    have : ∃ v', (w.msgCb = v'.cb ∧ w.log = v'.log) ∧ (Refused E.A h0 ∨ v' = v) := by
      rcases hcb with f | a
      · exact ⟨{ v with cb := w.msgCb, log := w.log }, ⟨rfl, rfl⟩, .inl f⟩
      · exact ⟨v, a, .inr rfl⟩
    obtain ⟨v', hv1, hv2⟩ := this
    rcases session_ok (v := v') hE hs s.1 (hd s (by simp)) hi hu (.inr hv1) with ⟨e, f⟩ | ⟨w', h', lf, e, o', hl, hi', e1, e2, hx⟩
    · exact .inl ⟨by unfold M.bind; rw [e]; rfl, hb f⟩
    · rw [bind_at e]
      obtain ⟨o2, k2⟩ := o.extend o'.nodup o'.fresh o'.live o'.same
      have o3 : Owned h0 h'.mem (w'.url :: w'.self :: (lf ++ left)) := by
        rw [e1, e2]
        exact o2.perm (by
          have := List.perm_append_comm_assoc lf [w.url, w.self] left
          simpa using this)
      have hu' : h'.mem w'.url = some (.str url) := by rw [e2, k2 w.url (by simp), hu]
      have hcb2 : Refused E.A h0 ∨ (w'.msgCb = (Spec.session E url s v).cb ∧ w'.log = (Spec.session E url s v).log) := by
        rcases hv2 with f | rfl
        · exact .inl f
        · rcases hx with f | hx
          · exact .inl (hb f)
          · exact .inr hx.2
      rcases ih (fun s h => hd s (by simp [h])) hi' hu' o3 hcb2 with ⟨e3, f3⟩ | ⟨w3, h3, l3, e3, o4, hl3, hi3, hx3⟩
      · exact .inl ⟨e3, f3⟩
      · refine .inr ⟨w3, h3, l3, e3, o4, ?_, hi3, ?_⟩
        · simp only [List.length_append] at hl3; omega
        · rcases hx with f | hx
          · exact .inl (hb f)
          · refine hx3.imp_right fun hx3 => ⟨?_, hx3.2⟩
            simp only [List.length_append] at hx3; omega

theorem life_ok {E : Env} (hE : Fresh E.A) {url : Bytes} {ss : List (Link × List Op)} (hs : Spec.Stays E ss) (h : Heap) :
    (life E url ss h = none ∧ Refused E.A h.mem) ∨
    ∃ log h' left, life E url ss h = some (log, h') ∧ Owned h.mem h'.mem left ∧ left.length ≤ Spec.refused url ss ∧
      (Refused E.A h.mem ∨ (left.length = Spec.refused url ss ∧ log = Spec.life E url ss)) := by
  unfold life create
  simp only [M.bind]
  rcases allocP hE (Owned.nil h.mem) blob with ⟨h1, e1, m1, f1⟩ | ⟨p, h1, e1, -, o1, -⟩
  · exact .inr ⟨[], h1, [], by simp [e1, M.pure], by rw [m1]; exact .nil _, by simp, .inl f1⟩
  · rcases allocP hE o1 (.str url) with ⟨h2, e2, m2, f2⟩ | ⟨u, h2, e2, hu, o2, -⟩
    · obtain ⟨h3, e3, o3, -⟩ := freeP (p := some p) (b := []) (h := h2) (by rw [m2]; exact o1)
      exact .inr ⟨[], h3, [], by simp [e1, e2, e3, M.pure, M.bind], o3, by simp, .inl f2⟩
    · simp only [e1, e2, Option.bind_some, M.pure, M.bind]
      rcases sessions_ok (url := url) (v := ⟨[], .disconnected, none, Rx.new, []⟩) hE hs.1 ss
          (w := ⟨p, u, none, .disconnected, none, Rx.new, 0, []⟩) (left := []) hs.2 (.inl rfl) hu o2 (.inr ⟨rfl, rfl⟩) with
        ⟨e3, f3⟩ | ⟨w3, h3, l3, e3, o3, hl3, hi3, hx3⟩
      · exact .inl ⟨by rw [e3]; rfl, f3⟩
      · obtain ⟨h4, e4, o4, -⟩ := freeP (p := some w3.url) (b := w3.self :: l3) o3
        obtain ⟨h5, e5, o5, -⟩ := freeP (p := some w3.self) (b := l3) o4
        refine .inr ⟨w3.log, h5, l3, ?_, o5, by simpa using hl3, hx3.imp_right fun a => ⟨by simpa using a.1, a.2⟩⟩
        rw [e3]
        simp only [Option.bind_some, destroy]
        rw [if_neg (by rcases hi3 with h | h <;> simp [h])]
        simp [M.bind, M.pure, e4, e5]

/-! ## The properties -/

/-- **C166.** The whole life of a relay: it is created, connected and disconnected any number of times, and destroyed; in
between, in any order, the application subscribes, unsubscribes, sends, sets callbacks, bytes arrive in any chunks,
the connection is established and lost; and inside every callback the application may call the library again (except for
disconnecting). As long as memory does not run out, no block is used or released that is not live, the application sees
what `Spec.life` says, and at the end memory is as it was, apart from one mutex for every connection that the websocket
library refused. -/
theorem C166_life {E : Env} (hE : Fresh E.A) {url : Bytes} {ss : List (Link × List Op)} (hs : Spec.Stays E ss) (h : Heap)
    (hm : ¬ Refused E.A h.mem) :
    ∃ (h' : Heap) (left : List Nat), life E url ss h = some (Spec.life E url ss, h') ∧ left.Nodup ∧ left.length = Spec.refused url ss ∧
      (∀ a ∈ left, h.mem a = none ∧ h'.mem a ≠ none) ∧ ∀ a, a ∉ left → h'.mem a = h.mem a := by
  rcases life_ok (url := url) hE hs h with ⟨-, f⟩ | ⟨log, h', left, e, o, -, f | ⟨h1, rfl⟩⟩
  · exact absurd f hm
  · exact absurd f hm
  · exact ⟨h', left, e, o.nodup, h1, fun a ha => ⟨o.fresh a ha, o.live a ha⟩, o.same⟩

/-- **C166.** Whatever fails: a life that ends gives back all its memory, apart from the mutexes of refused connections. -/
theorem C166_memory {E : Env} (hE : Fresh E.A) {url : Bytes} {ss : List (Link × List Op)} (hs : Spec.Stays E ss) {h h' : Heap}
    {log : List Seen} (e : life E url ss h = some (log, h')) (hr : ∀ s ∈ ss, s.1 ≠ .refused) : h'.mem = h.mem := by
  have h0 : Spec.refused url ss = 0 := by
    unfold Spec.refused
    split
    · rw [List.countP_eq_zero]; intro s hs; simpa using hr s hs
    · rfl
  rcases life_ok (url := url) hE hs h with ⟨e', -⟩ | ⟨log', h'', left, e', o, hl, -⟩
  · rw [e] at e'; simp at e'
  · rw [e] at e'
    simp only [Option.some.injEq, Prod.mk.injEq] at e'
    obtain ⟨rfl, rfl⟩ := e'
    have : left = [] := List.eq_nil_of_length_eq_zero (by omega)
    subst this
    exact o.eq

/-- **C166, in part.** Undefined behaviour only when memory runs out. What is missing: `C166_nameless_refuted`. -/
theorem C166_safe_partial {E : Env} (hE : Fresh E.A) {url : Bytes} {ss : List (Link × List Op)} (hs : Spec.Stays E ss) (h : Heap)
    (e : life E url ss h = none) : Refused E.A h.mem := by
  rcases life_ok (url := url) hE hs h with ⟨-, f⟩ | ⟨log, h', left, e', -⟩
  · exact f
  · rw [e] at e'; simp at e'

/-- A connection that is refused leaves a mutex behind: relay.c:281-288 does not destroy it. -/
theorem C166_mutex_refuted {E : Env} (hE : Fresh E.A) {url : Bytes} {ss : List (Link × List Op)} (hs : Spec.Stays E ss) (h : Heap)
    (hm : ¬ Refused E.A h.mem) (hu : (Nostr.Relay.resolve true url).isOk) (hr : ∃ s ∈ ss, s.1 = .refused) :
    ∃ log h', life E url ss h = some (log, h') ∧ h'.mem ≠ h.mem := by
  obtain ⟨h', left, e, -, hl, hb, -⟩ := C166_life (url := url) hE hs h hm
  refine ⟨_, h', e, fun heq => ?_⟩
  have : 0 < Spec.refused url ss := by
    unfold Spec.refused
    rw [if_pos hu, List.countP_pos_iff]
    obtain ⟨s, hs, hl⟩ := hr
    exact ⟨s, hs, by simpa using hl⟩
  cases left with
  | nil => simp at hl; omega
  | cons a l => obtain ⟨h1, h2⟩ := hb a (by simp); rw [heq, h1] at h2; exact h2 rfl

/-- A relay that is destroyed while it has a connection. -/
def direct (E : Env) (url : Bytes) (os : List Op) : M (List Seen) :=
  M.bind (create E.A url) fun w =>
  match w with
  | none => M.pure []
  | some w =>
    M.bind (connect E .up w) fun r =>
    M.bind (ops E os r.2) fun w => M.bind (destroy w) fun _ => M.pure w.log

/-- What the application sees then. -/
def Spec.direct (E : Env) (url : Bytes) (os : List Op) : Spec.View :=
  Spec.session E url (.up, os) ⟨[], .disconnected, none, Rx.new, []⟩

/-- **C166.** A relay that is connected, or connecting, may be destroyed without being disconnected before: memory is as it
was. When the connection was lost before, memory is lost. -/
theorem C166_direct {E : Env} (hE : Fresh E.A) {url : Bytes} {os : List Op} (hs : Spec.Stays E [(.up, os)]) (h : Heap)
    (hm : ¬ Refused E.A h.mem) (hu : (Nostr.Relay.resolve true url).isOk) :
    ∃ h', direct E url os h = some ((Spec.direct E url os).log, h') ∧
      (h'.mem = h.mem ↔ (Spec.direct E url os).state = .connected ∨ (Spec.direct E url os).state = .connecting) := by
  unfold direct create
  simp only [M.bind]
  rcases allocP hE (Owned.nil h.mem) blob with ⟨h1, e1, m1, f1⟩ | ⟨p, h1, e1, -, o1, -⟩
  · exact absurd f1 hm
  · rcases allocP hE o1 (.str url) with ⟨h2, e2, m2, f2⟩ | ⟨u, h2, e2, hul, o2, -⟩
    · exact absurd f2 hm
    · simp only [e1, e2, Option.bind_some, M.pure, M.bind]
      have hb : ¬ Refused E.A h2.mem := fun f => hm (f.back o2.same)
      rcases connect_ok (v := ⟨[], .disconnected, none, Rx.new, []⟩) hE hs.1 .up (w := ⟨p, u, none, .disconnected, none, Rx.new, 0, []⟩)
          (.inl rfl) hul (.inr ⟨rfl, rfl⟩) with ⟨-, f⟩ | ⟨w', h', -, f⟩ | ⟨c, w', h', e, -, -, g, k1, k2⟩
      · exact absurd f hb
      · rcases f.why with f | f
        · exact absurd f hb
        · exact absurd ⟨hu, rfl⟩ f
      · rw [e]
        have s := ops_ok hE hs.1 os (fun o h e => hs.2 (.up, os) (by simp) (e ▸ h)) g
        simp only [Option.bind_some]
        cases hmo : ops E os w' h' with
        | none => exact absurd (s.ub hmo) hb
        | some r =>
          obtain ⟨w3, h3⟩ := r
          obtain ⟨⟨recv, g3, -⟩, -, k3, k4⟩ := s.ok _ _ hmo
          have hself : w3.self = p := k3.trans k1
          have hurl : w3.url = u := k4.trans k2
          have hsp : Spec.direct E url os = os.foldl (fun v o => Spec.op E o v)
              (Spec.callback E.app (.state .connecting) ⟨[], .connecting, none, Rx.new, []⟩) := by
            unfold Spec.direct Spec.session
            rw [if_pos ⟨hu, rfl⟩]
          obtain ⟨hw, ns, bl, k, ow, n, -, a⟩ := id g3
          rcases a with f | a
          · exact absurd f hb
          · rw [← hsp] at a
            simp only [Option.bind_some, destroy, M.bind]
            by_cases hst : w3.state = .connected ∨ w3.state = .connecting
            · rw [if_pos hst]
              obtain ⟨h4, e4, o4, -⟩ := disconnect_ok g3
              obtain ⟨h5, e5, o5, -⟩ := freeP (p := some u) (b := [p]) (h := h4) (by rw [o4.eq]; exact o2)
              obtain ⟨h6, e6, o6, -⟩ := freeP (p := some p) (b := []) o5
              refine ⟨h6, by simp [e4, hurl, hself, e5, e6, a.log], ?_⟩
              rw [← a.state]
              exact ⟨fun _ => hst, fun _ => o6.eq⟩
            · rw [if_neg hst]
              simp only [List.append_nil] at ow
              obtain ⟨o4, -⟩ := o2.extend ow.nodup ow.fresh ow.live ow.same
              obtain ⟨h5, e5, o5, -⟩ := freeP (p := some u) (b := p :: bl) (h := h3) (o4.perm (by
                simpa using (List.perm_append_comm (l₁ := bl) (l₂ := [u, p]))))
              obtain ⟨h6, e6, o6, -⟩ := freeP (p := some p) (b := bl) o5
              refine ⟨h6, by simp [M.pure, hurl, hself, e5, e6, a.log], ?_⟩
              rw [← a.state]
              refine ⟨fun heq => ?_, fun h => absurd h hst⟩
              obtain ⟨head, context, mutex, own, hc, hl, rfl⟩ := k.ex
              exact absurd (by rw [heq]; exact o6.fresh c (by simp)) (o6.live c (by simp))

/-! ## Examples -/

/-- The circumstances of the examples: addresses 100, 101, …; the allocation number `k` fails. -/
def env (k : Nat) (app : List Seen → List Act) : Env :=
  ⟨Filter.Props.failAt k, ⟨fun _ => 0, false⟩, fun n => n, fun _ => [], none, fun _ _ => true, fun s => .str s, app⟩

/-- The chunks of a connection: two messages for "s", the first in two parts, then one that closes it. -/
def chunks : List Op := [.established, .arrive c!"[\"EVENT\",\"s\",{\"con", .arrive c!"tent\":\"x\"}][\"EVENT\",\"s\",{}]",
  .arrive c!"[\"CLOSED\",\"s\",\"\"]"]

/-- Subscribes when connected; unsubscribes and sets the message callback inside the event callback. -/
def app1 : List Seen → List Act := fun log =>
  match log.getLast? with
  | some (.state .connected) => [.subscribe c!"s" c!"{}" (some 7), .subscribe c!"t" c!"{}" none]
  | some (.call (.event _ _)) => [.unsubscribe c!"s", .setCallback (some 8), .send Event.zero]
  | _ => []

theorem app1_stays (A : Alloc) (P td fr cfg grow r) (ss : List (Link × List Op)) (hs : ∀ s ∈ ss, Op.act .disconnect ∉ s.2) :
    Spec.Stays ⟨A, P, td, fr, cfg, grow, r, app1⟩ ss := by
  refine ⟨fun log => ?_, hs⟩
  show Act.disconnect ∉ app1 log
  unfold app1
  split <;> simp

/-- The hypotheses of `C166_life` and what it says: the second event is not delivered, because the application has unsubscribed
inside the callback; the message callback that was set there gets the last message; one connection is refused. -/
example : let E := env 999 app1; let ss : List (Link × List Op) := [(.up, chunks), (.refused, []), (.up, [.lost true])];
    Spec.Stays E ss ∧ Fresh generous ∧ ¬ Refused generous (fun _ => none) ∧ Spec.refused c!"wss://x" ss = 1 ∧
    Spec.life E c!"wss://x" ss = [.state .connecting, .state .connected, .call (.event 7 { Event.zero with content := some c!"x" }),
      .call (.message c!"CLOSED" (print true 0 (.arr [.str c!"CLOSED", .str c!"s", .str []]))),
      .state .connecting, .state .disconnected, .state .connecting] :=
  ⟨app1_stays _ _ _ _ _ _ _ _ (by decide), generous_fresh, generous_never (live := []) (fun _ _ => rfl), by decide +kernel, by decide +kernel⟩

/-- A whole life in memory: with enough memory, only the mutex of the refused connection is left; and with every single
allocation failing in turn, the life ends with nothing else left, or stops at the copy of the address (3) or the nameless
subscriptions (8, 13). -/
example : (life (env 999 app1) c!"wss://x" [(.up, chunks), (.refused, [])] ⟨fun _ => none, 0⟩).map
      (fun r => (r.1.length, (List.range 200).filter fun a => (r.2.mem a).isSome)) = some (4, [136]) ∧
    ((List.range 40).filter fun k => (life (env k app1) c!"wss://x" [(.up, chunks)] ⟨fun _ => none, 0⟩).isNone) = [3, 8, 13] := by
  decide +kernel

/-- The application disconnects inside the message callback: the buffer is used after it was released (relay.c:691). -/
theorem C166_disconnect_refuted : ∃ (E : Env) (url : Bytes) (os : List Op), Fresh E.A ∧ Op.act .disconnect ∉ os ∧
    E.app [.state .connecting, .state .connected, .call (.message c!"NOTICE" (print true 0 (.arr [.str c!"NOTICE", .str c!"1"])))] = [.disconnect] ∧
    life E url [(.up, os)] ⟨fun _ => none, 0⟩ = none ∧
    (life { E with app := fun log => if log.length = 2 then [.setCallback (some 8)] else [] } url [(.up, os)] ⟨fun _ => none, 0⟩).isSome := by
  refine ⟨env 999 fun log => if log.length = 2 then [.setCallback (some 8)] else if log.length = 3 then [.disconnect] else [],
    c!"ws://x", [.established, .arrive c!"[\"NOTICE\",1]"], Ev.Props.failAt_fresh 999, by decide, ?_, ?_, ?_⟩ <;> decide +kernel

/-- The copy of a subscription's id fails: the next message that looks for a subscription reads NULL (relay.c:456). -/
theorem C166_nameless_refuted : ∃ (E : Env) (url : Bytes) (os : List Op), Fresh E.A ∧ Spec.Stays E [(.up, os)] ∧
    life E url [(.up, os)] ⟨fun _ => none, 0⟩ = none := by
  refine ⟨env 8 fun log => if log.length = 2 then [.subscribe c!"s" c!"{}" none] else [],
    c!"ws://x", [.established, .arrive c!"[\"CLOSED\",\"\",1]"], Ev.Props.failAt_fresh 8, ⟨fun log => ?_, by decide⟩, by decide +kernel⟩
  show Act.disconnect ∉ (if log.length = 2 then _ else _)
  split <;> simp

/-- `C166_direct`: connected; lost. -/
example : (Spec.direct (env 999 app1) c!"wss://x" chunks).state = .connected ∧
    (Spec.direct (env 999 app1) c!"wss://x" (chunks ++ [.lost false])).state = .disconnected := by decide +kernel

end Nostr.Own.Relay.Props
