import Verif.Own.Basic
import Verif.Own.Conn
import Verif.Filter.HeapProps

/-! # Property theorems: memory of a wallet connection (C132) -/

namespace Nostr.Own.Conn.Props
open Nostr Nostr.Heap Nostr.Own Nostr.Own.Conn Nostr.Filter.Own

/-! ## Specification -/

/-- A parameter that is a Lightning address. -/
def isLud (p : Bytes) : Bool := decide ((RelayProto.strchr 0x3d p).map Prod.fst = some c!"lud16")

/-- How many Lightning addresses the text of a connection has. -/
def luds (uri : Bytes) : Nat :=
  match RelayProto.strchr 0x3f (uri.drop Nip47.scheme.length) with
  | none => 0
  | some (_, query) => (Text.tokens 0x26 query).countP isLud

/-- The blocks of a connection hold the values of `v`. -/
structure Rep (m : Mem) (c : HConn) (v : Nip47.Conn) : Prop where
  relays : ∃ own, StrArr m c.relays c.count v.relays own
  lud16 : ∃ own, OptS m c.lud16 v.lud16 own
  secret : c.secret = v.secret
  key : c.key = v.key

/-! ## Lemmas -/

theorem freeConn_ok {h0 : Mem} {h : Heap} {c : HConn} {rl ro lud lo leak}
    (hr : StrArr h.mem c.relays c.count rl ro) (hl : OptS h.mem c.lud16 lud lo)
    (o : Owned h0 h.mem (ro ++ (lo ++ (c.self :: leak)))) :
    ∃ h', freeConn c h = some ((), h') ∧ Owned h0 h'.mem leak := by
  unfold freeConn
  simp only [M.bind]
  obtain ⟨h1, e1, m1, o1⟩ := o.freeStrings hr
  have hn := List.nodup_append.1 o.nodup
  have hl1 : OptS h1.mem c.lud16 lud lo := hl.mono fun a ha => by
    rw [m1]; exact without_other _ fun hb => hn.2.2 a hb a (List.mem_append_left _ ha) rfl
  obtain ⟨h2, e2, m2, o2⟩ := o1.freeOpt hl1
  obtain ⟨h3, e3, m3, o3⟩ := o2.free
  rw [e1]; simp only [Option.bind_some]
  rw [e2]; simp only [Option.bind_some]
  exact ⟨h3, e3, o3⟩

theorem fail_ok {h0 : Mem} {h : Heap} {e : Err} {params : Nat} {c : HConn} {rl ro lud lo leak}
    (hr : StrArr h.mem c.relays c.count rl ro) (hl : OptS h.mem c.lud16 lud lo)
    (o : Owned h0 h.mem (params :: (ro ++ (lo ++ (c.self :: leak))))) :
    ∃ h', fail e params c h = some ((some e, c), h') ∧ Owned h0 h'.mem leak := by
  unfold fail
  simp only [M.bind]
  obtain ⟨h1, e1, m1, o1⟩ := o.free
  have hn := List.nodup_cons.1 o.nodup
  have hr1 : StrArr h1.mem c.relays c.count rl ro := hr.mono fun a ha => by
    rw [m1]; exact without_other _ (by simp only [List.mem_singleton]; rintro rfl; exact hn.1 (by simp [ha]))
  have hl1 : OptS h1.mem c.lud16 lud lo := hl.mono fun a ha => by
    rw [m1]; exact without_other _ (by simp only [List.mem_singleton]; rintro rfl; exact hn.1 (by simp [ha]))
  obtain ⟨h2, e2, o2⟩ := freeConn_ok hr1 hl1 o1
  rw [e1]; simp only [Option.bind_some]
  rw [e2]; simp only [Option.bind_some, M.pure]
  exact ⟨h2, rfl, o2⟩

/-- The state while the parameters are read. -/
structure Inv (h0 h : Mem) (params : Nat) (c : HConn) (d : Nat) (ps : List Nat) (rl : List Bytes) (lud : Option Bytes)
    (lo leak : List Nat) : Prop where
  rel : c.relays = some d
  cnt : c.count = ps.length
  room : ps.length ≤ c.cap
  pos : 0 < c.cap
  arr : Arr h d ps rl (c.cap - ps.length)
  opt : OptS h c.lud16 lud lo
  own : Owned h0 h (params :: (d :: ps ++ (lo ++ (c.self :: leak))))

theorem Inv.fail {h0 : Mem} {h : Heap} {params c d ps rl lud lo leak} (i : Inv h0 h.mem params c d ps rl lud lo leak)
    (e : Err) : ∃ h', fail e params c h = some ((some e, c), h') ∧ Owned h0 h'.mem leak := by
  refine fail_ok (rl := rl) (ro := d :: ps) ?_ i.opt i.own
  rw [i.rel, i.cnt]; exact i.arr.strArr

/-- One for a Lightning address that is held. -/
def held (lud : Option Bytes) : Nat := if lud = none then 0 else 1

theorem held_le (lud : Option Bytes) : min 1 (held lud) = held lud := by unfold held; split <;> rfl

/-- What reading one more parameter, or all, comes to. -/
def Outcome (A : Alloc) (h0 : Mem) (params : Nat) (lud : Option Bytes) (leak : List Nat) (n : Nat) (v : Res Nip47.Conn)
    (r : Option Err × HConn) (h : Mem) : Prop :=
  (∃ e leak', r.1 = some e ∧ (v = .err e ∨ (Refused A h0 ∧ e = .memory)) ∧ Owned h0 h leak' ∧
      leak'.length ≤ leak.length + (held lud + n - 1)) ∨
  (∃ d ps rl lud' lo leak', r.1 = none ∧ Inv h0 h params r.2 d ps rl lud' lo leak' ∧
      v = .ok ⟨rl, r.2.secret, r.2.key, lud'⟩ ∧ leak'.length + held lud' = leak.length + held lud + n ∧
      held lud' = min 1 (n + held lud))

theorem realloc_ok {A : Alloc} (hA : Fresh A) {h0 : Mem} {h : Heap} {d ps rl k rest n} (a : Arr h.mem d ps rl k)
    (o : Owned h0 h.mem (d :: ps ++ rest)) (hn : ps.length + k ≤ n) :
    (∃ h', realloc A d n h = some (none, h') ∧ h'.mem = h.mem ∧ Refused A h0) ∨
    ∃ d' h', realloc A d n h = some (some d', h') ∧ Arr h'.mem d' ps rl (n - ps.length) ∧
      Owned h0 h'.mem (d' :: ps ++ rest) ∧ ∀ x ∈ ps ++ rest, h'.mem x = h.mem x := by
  unfold realloc
  rw [a.arr]
  cases hc : A (upd h.mem d none) h.tick with
  | none => exact .inl ⟨_, rfl, rfl, (Refused.here hc).back (own := d :: (d :: ps ++ rest)) fun x hx => by
      simp only [List.mem_cons, not_or] at hx
      rw [upd_other _ _ hx.1]
      exact o.same x (by simpa using hx.2)⟩
  | some d' =>
    right
    have hd' := hA _ _ _ hc
    have hnd := List.nodup_cons.1 o.nodup
    have o1 : Owned h0 (upd h.mem d none) (ps ++ rest) := by
      have : upd h.mem d none = without h.mem [d] := by funext x; by_cases h : x = d <;> simp [upd, without, h]
      rw [this]; exact Owned.drop (a := [d]) o
    have keep : ∀ x ∈ ps ++ rest, x ≠ d ∧ x ≠ d' := fun x hx =>
      ⟨by rintro rfl; exact hnd.1 hx, by rintro rfl; exact o1.live _ hx hd'⟩
    refine ⟨d', _, rfl, ⟨?_, ?_⟩, o1.new hd' _, fun x hx => ?_⟩
    · simp only [upd_same]
      congr 2
      rw [List.append_assoc, List.replicate_append_replicate]
      congr 2
      simp; omega
    · refine a.strs.mono fun x hx => ?_
      have := keep x (List.mem_append_left _ hx)
      simp only [upd_other _ _ this.2, upd_other _ _ this.1]
    · have := keep x hx
      simp only [upd_other _ _ this.2, upd_other _ _ this.1]

theorem param_ok {A : Alloc} (hA : Fresh A) {h0 : Mem} {h : Heap} {params c d ps rl lud lo leak}
    (i : Inv h0 h.mem params c d ps rl lud lo leak) (p : Bytes) :
    ∃ r h', param A params c p h = some (r, h') ∧
      Outcome A h0 params lud leak (if isLud p then 1 else 0) (Nip47.param ⟨rl, c.secret, c.key, lud⟩ p) r h'.mem := by
  unfold param Nip47.param
  cases hs : RelayProto.strchr 0x3d p with
  | none =>
    have hl : isLud p = false := by simp [isLud, hs]
    rw [hl]
    exact ⟨_, _, rfl, .inr ⟨d, ps, rl, lud, lo, leak, rfl, i, rfl, by simp, by simp [held_le]⟩⟩
  | some nv =>
    obtain ⟨name, value⟩ := nv
    have hl : isLud p = decide (name = c!"lud16") := by simp [isLud, hs]
    simp only
    by_cases h1 : name = c!"relay"
    · have hl' : isLud p = false := by rw [hl, h1]; decide
      rw [if_pos h1, if_pos h1, hl']
      unfold addRelay
      -- the array has room after the first step, or the call failed
      have grow : ∀ (k : Option Err × HConn → M (Option Err × HConn)),
          (∀ e h', (∃ lk, Owned h0 h'.mem lk ∧ lk.length ≤ leak.length) → Refused A h0 → e = .memory → ∀ c', ∃ r h'', k (some e, c') h' = some (r, h'') ∧ r.1 = some e ∧ h''.mem = h'.mem) →
          (∀ c' d' h', Inv h0 h'.mem params c' d' ps rl lud lo leak → ps.length < c'.cap → c'.secret = c.secret → c'.key = c.key →
            ∃ r h'', k (none, c') h' = some (r, h'') ∧
              Outcome A h0 params lud leak 0 (.ok ⟨rl ++ [Nip47.urlDecode value], c.secret, c.key, lud⟩) r h''.mem) →
          ∃ r h', M.bind (if c.count ≥ c.cap then
              match c.relays with
              | none => fun _ => none
              | some d => M.bind (realloc A d (c.cap * 2)) fun r =>
                  match r with
                  | none => M.bind (fail .memory params { c with cap := c.cap * 2 }) fun x => M.pure x
                  | some d' => M.pure (none, { c with relays := some d', cap := c.cap * 2 })
             else M.pure (none, c)) k h = some (r, h') ∧
              Outcome A h0 params lud leak 0 (.ok ⟨rl ++ [Nip47.urlDecode value], c.secret, c.key, lud⟩) r h'.mem := by
        intro k kf ks
        by_cases hc : c.count ≥ c.cap
        · rw [if_pos hc, i.rel]
          simp only [M.bind]
          have hroom := i.room
          have hcnt := i.cnt
          have hpos := i.pos
          rcases realloc_ok hA (rest := params :: (lo ++ (c.self :: leak))) (n := c.cap * 2) i.arr
              (i.own.perm (by
                simp only [List.cons_append]
                exact ((List.Perm.swap _ _ _).trans ((List.perm_middle (l₁ := ps)).symm.cons _)))) (by omega) with
            ⟨h1, e1, m1, f1⟩ | ⟨d', h1, e1, a1, o1, k1⟩
          · rw [e1]
            simp only [Option.bind_some]
            obtain ⟨h2, e2, o2⟩ := fail_ok (h := h1) (e := .memory) (params := params) (c := { c with cap := c.cap * 2 })
              (rl := rl) (ro := d :: ps) (lud := lud) (lo := lo) (leak := leak) (h0 := h0)
              (by simp only [i.rel, i.cnt, m1]; exact i.arr.strArr) (by rw [m1]; exact i.opt) (by rw [m1]; exact i.own)
            rw [show ({ c with cap := c.cap * 2 } : HConn) = ⟨c.self, some d, c.count, c.cap * 2, c.lud16, c.secret, c.key⟩ by rw [← i.rel]] at e2
            simp only [M.bind, e2, Option.bind_some, M.pure]
            obtain ⟨r, h'', e3, hr, hm⟩ := kf .memory h2 ⟨leak, o2, Nat.le_refl _⟩ f1 rfl _
            refine ⟨r, h'', e3, .inl ⟨.memory, leak, hr, .inr ⟨f1, rfl⟩, by rw [hm]; exact o2, by omega⟩⟩
          · rw [e1]
            simp only [Option.bind_some, M.pure]
            refine ks _ d' h1 ⟨rfl, i.cnt, by show ps.length ≤ c.cap * 2; omega, by show 0 < c.cap * 2; omega, a1, ?_, ?_⟩
              (by show ps.length < c.cap * 2; omega) rfl rfl
            · exact i.opt.mono fun x hx => k1 x (by simp [hx])
            · refine o1.perm ?_
              simp only [List.cons_append]
              exact (((List.perm_middle (l₁ := ps))).cons _).trans (List.Perm.swap _ _ _)
        · rw [if_neg hc]
          simp only [M.bind, M.pure, Option.bind_some]
          have := i.cnt
          exact ks c d h i (by omega) rfl rfl
      refine grow _ ?_ ?_
      · intro e h' _ _ _ c'
        exact ⟨_, _, rfl, rfl, rfl⟩
      · intro c' d' h' i' hr hsec hkey
        simp only [M.bind]
        rcases i'.own.alloc hA (.str (Nip47.urlDecode value)) with ⟨h2, e2, m2, f2⟩ | ⟨s, h2, e2, m2, n2, o2⟩
        · rw [e2]
          simp only [Option.bind_some]
          have i2 : Inv h0 h2.mem params c' d' ps rl lud lo leak := by rw [m2]; exact i'
          obtain ⟨h3, e3, o3⟩ := i2.fail .memory
          exact ⟨_, h3, e3, .inl ⟨.memory, leak, rfl, .inr ⟨f2, rfl⟩, o3, by omega⟩⟩
        · rw [e2, i'.rel]
          simp only [Option.bind_some]
          have hx : ∀ x, h'.mem x ≠ none → h2.mem x = h'.mem x := fun x hx => by
            rw [m2]; exact upd_other _ _ (by rintro rfl; exact hx n2)
          have hl : ∀ x ∈ params :: (d' :: ps ++ (lo ++ (c'.self :: leak))), h2.mem x = h'.mem x :=
            fun x hm => hx x (i'.own.live x hm)
          have a2 : Arr h2.mem d' ps rl (c'.cap - ps.length) := i'.arr.mono fun x hm => hl x (by
            rcases List.mem_cons.1 hm with rfl | hm
            · simp
            · simp [hm])
          have hnd : (d' :: ps).Nodup := (List.nodup_append.1 (List.nodup_cons.1 i'.own.nodup).2).1
          obtain ⟨k, hk⟩ : ∃ k, c'.cap - ps.length = k + 1 := ⟨c'.cap - ps.length - 1, by omega⟩
          rw [hk] at a2
          obtain ⟨h3, e3, a3, o3, k3⟩ := a2.push o2 (by simp) (fun x hx => by simp [hx]) hnd (s := Nip47.urlDecode value) (by rw [m2]; simp)
          rw [i'.cnt]
          simp only [M.bind, e3, Option.bind_some, M.pure]
          refine ⟨_, _, rfl, .inr ⟨d', ps ++ [s], rl ++ [Nip47.urlDecode value], lud, lo, leak, rfl, ?_, ?_, by simp, by simp [held_le]⟩⟩
          · have hd3 : ∀ x ∈ lo, h3.mem x = h'.mem x := fun x hm => by
              rw [k3 x ?_, hl x (by simp [hm])]
              rintro rfl
              have := (List.nodup_append.1 (List.nodup_cons.1 i'.own.nodup).2).2.2
              exact this x (by simp) x (by simp [hm]) rfl
            refine ⟨rfl, by simp, by simp; omega, i'.pos, ?_, i'.opt.mono hd3, ?_⟩
            · have : c'.cap - (ps ++ [s]).length = k := by simp; omega
              rw [show ({ c' with count := ps.length + 1 } : HConn).cap - (ps ++ [s]).length = k from this]
              exact a3
            · refine o3.perm ?_
              simp only [List.cons_append, List.append_assoc, List.singleton_append]
              exact (List.Perm.swap _ _ _).trans (((List.Perm.swap _ _ _).trans ((List.perm_middle (l₁ := ps)).symm.cons _)).cons _)
          · rw [← hsec, ← hkey]
    · rw [if_neg h1, if_neg h1]
      by_cases h2 : name = c!"secret"
      · have hl' : isLud p = false := by rw [hl, h2]; decide
        rw [if_pos h2, if_pos h2, hl']
        by_cases h3 : value.length ≠ 64
        · rw [if_pos h3, if_pos h3]
          obtain ⟨h', e1, o1⟩ := i.fail .invalidParam
          exact ⟨_, h', e1, .inl ⟨_, leak, rfl, .inl rfl, o1, by omega⟩⟩
        · rw [if_neg h3, if_neg h3]
          cases hd : Nip47.hexDecode value 32 with
          | none =>
            obtain ⟨h', e1, o1⟩ := i.fail .invalidParam
            exact ⟨_, h', e1, .inl ⟨_, leak, rfl, .inl rfl, o1, by omega⟩⟩
          | some b =>
            refine ⟨_, _, rfl, .inr ⟨d, ps, rl, lud, lo, leak, rfl, ?_, rfl, by simp, by simp [held_le]⟩⟩
            exact ⟨i.rel, i.cnt, i.room, i.pos, i.arr, i.opt, i.own⟩
      · rw [if_neg h2, if_neg h2]
        by_cases h3 : name = c!"lud16"
        · have hl' : isLud p = true := by rw [hl, h3]; decide
          rw [if_pos h3, if_pos h3, hl']
          simp only [M.bind]
          have lolen : lo.length = held lud := by have := i.opt; revert this; generalize c.lud16 = q; intro this; cases this <;> simp [held]
          rcases i.own.alloc hA (.str (Nip47.urlDecode value)) with ⟨h2, e2, m2, f2⟩ | ⟨s, h2, e2, m2, n2, o2⟩
          · rw [e2]
            simp only [Option.bind_some]
            obtain ⟨h3, e3, o3⟩ := fail_ok (h := h2) (e := .memory) (params := params) (c := { c with lud16 := none })
              (rl := rl) (ro := d :: ps) (lud := none) (lo := []) (leak := leak ++ lo) (h0 := h0)
              (by rw [m2]; simp only [i.rel, i.cnt]; exact i.arr.strArr) .null (by
                rw [m2]
                refine i.own.perm ?_
                refine (List.Perm.append_left _ ?_).cons _
                simp only [List.nil_append]
                exact List.perm_append_comm)
            exact ⟨_, h3, e3, .inl ⟨_, leak ++ lo, rfl, .inr ⟨f2, rfl⟩, o3, by rw [List.length_append, lolen]; simp⟩⟩
          · rw [e2]
            simp only [Option.bind_some, M.pure]
            have hl : ∀ x ∈ params :: (d :: ps ++ (lo ++ (c.self :: leak))), h2.mem x = h.mem x := fun x hm => by
              rw [m2]; exact upd_other _ _ (by rintro rfl; exact i.own.live _ hm n2)
            refine ⟨_, _, rfl, .inr ⟨d, ps, rl, some (Nip47.urlDecode value), [s], leak ++ lo, rfl, ?_, rfl, ?_, by simp [held]⟩⟩
            · refine ⟨i.rel, i.cnt, i.room, i.pos, i.arr.mono fun x hm => hl x ?_, .str (by rw [m2]; simp), ?_⟩
              · rcases List.mem_cons.1 hm with rfl | hm
                · simp
                · simp [hm]
              · refine o2.perm ?_
                refine (List.Perm.swap _ _ _).trans (List.Perm.cons _ ?_)
                refine (List.perm_middle (l₁ := d :: ps)).symm.trans ?_
                refine List.Perm.append_left _ ?_
                simp only [List.singleton_append]
                refine List.Perm.cons _ ?_
                exact List.perm_append_comm
            · rw [List.length_append, lolen]; simp [held]
        · have hl' : isLud p = false := by rw [hl]; simpa using h3
          rw [if_neg h3, if_neg h3, hl']
          exact ⟨_, _, rfl, .inr ⟨d, ps, rl, lud, lo, leak, rfl, i, rfl, by simp, by simp [held_le]⟩⟩

theorem loop_ok {A : Alloc} (hA : Fresh A) {h0 : Mem} {params : Nat} : ∀ (qs : List Bytes) {h : Heap} {c d ps rl lud lo leak}
    (_ : Inv h0 h.mem params c d ps rl lud lo leak),
    ∃ r h', loop A params c qs h = some (r, h') ∧
      Outcome A h0 params lud leak (qs.countP isLud) (Nip47.params ⟨rl, c.secret, c.key, lud⟩ qs) r h'.mem
  | [], h, c, d, ps, rl, lud, lo, leak, i => by
      exact ⟨_, _, rfl, .inr ⟨d, ps, rl, lud, lo, leak, rfl, i, rfl, by simp, by simp [held_le]⟩⟩
  | q :: qs, h, c, d, ps, rl, lud, lo, leak, i => by
      obtain ⟨r, h1, e1, o1⟩ := param_ok hA i q
      unfold loop
      simp only [M.bind, e1, Option.bind_some, Nip47.params]
      have hcnt : (q :: qs).countP isLud = qs.countP isLud + (if isLud q then 1 else 0) := by
        rw [List.countP_cons]
      rcases o1 with ⟨e, lk, hr, hv, ho, hk⟩ | ⟨d1, ps1, rl1, lud1, lo1, lk1, hr, i1, hv, hk, hz⟩
      · rw [hr]
        refine ⟨_, _, rfl, .inl ⟨e, lk, rfl, ?_, ho, ?_⟩⟩
        · rcases hv with hv | hv
          · left; rw [hv]; rfl
          · exact .inr hv
        · rw [hcnt]; omega
      · rw [hr]
        simp only
        obtain ⟨r2, h2, e2, o2⟩ := loop_ok hA qs i1
        refine ⟨r2, h2, e2, ?_⟩
        rw [hv]
        simp only [Res.bind_ok]
        rcases o2 with ⟨e, lk, hr2, hv2, ho2, hk2⟩ | ⟨d2, ps2, rl2, lud2, lo2, lk2, hr2, i2, hv2, hk2, hz2⟩
        · refine .inl ⟨e, lk, hr2, hv2, ho2, ?_⟩
          rw [hcnt]
          omega
        · refine .inr ⟨d2, ps2, rl2, lud2, lo2, lk2, hr2, i2, hv2, ?_, ?_⟩
          · rw [hcnt]; omega
          · rw [hcnt]; omega

/-- What the caller gets. -/
def Result (A : Alloc) (uri : Bytes) (h : Heap) (r : Option Err × Option HConn) (h' : Heap) : Prop :=
  match r.2 with
  | none => ∃ e leak, r.1 = some e ∧ (Nip47.parseUri uri = .err e ∨ (Refused A h.mem ∧ e = .memory)) ∧
      Owned h.mem h'.mem leak ∧ leak.length ≤ luds uri - 1
  | some c => r.1 = none ∧ ∃ v h'' leak, Nip47.parseUri uri = .ok v ∧ Rep h'.mem c v ∧
      freeConn c h' = some ((), h'') ∧ Owned h.mem h''.mem leak ∧ leak.length = luds uri - 1

/-- What the caller gets, with the blocks. -/
def ResultOwn (A : Alloc) (uri : Bytes) (h : Heap) (r : Option Err × Option HConn) (h' : Heap) : Prop :=
  match r.2 with
  | none => ∃ e leak, r.1 = some e ∧ (Nip47.parseUri uri = .err e ∨ (Refused A h.mem ∧ e = .memory)) ∧
      Owned h.mem h'.mem leak ∧ leak.length ≤ luds uri - 1
  | some c => r.1 = none ∧ ∃ v ro lo leak, Nip47.parseUri uri = .ok v ∧ c.secret = v.secret ∧ c.key = v.key ∧
      StrArr h'.mem c.relays c.count v.relays ro ∧ OptS h'.mem c.lud16 v.lud16 lo ∧
      Owned h.mem h'.mem (ro ++ (lo ++ (c.self :: leak))) ∧ leak.length = luds uri - 1

theorem parse_own {A : Alloc} (hA : Fresh A) (uri : Bytes) (h : Heap) :
    ∃ r h', parse A uri h = some (r, h') ∧ ResultOwn A uri h r h' := by
  unfold parse
  by_cases h1 : uri.take Nip47.scheme.length ≠ Nip47.scheme
  · rw [if_pos h1]
    exact ⟨_, _, rfl, .invalidParam, [], rfl, .inl (by unfold Nip47.parseUri; rw [if_pos h1]), .nil _, by simp⟩
  · rw [if_neg h1]
    cases h2 : RelayProto.strchr 0x3f (uri.drop Nip47.scheme.length) with
    | none =>
      exact ⟨_, _, rfl, .invalidParam, [], rfl, .inl (by unfold Nip47.parseUri; rw [if_neg h1, h2]), .nil _, by simp⟩
    | some kq =>
      obtain ⟨k, query⟩ := kq
      have hluds : luds uri = (Text.tokens 0x26 query).countP isLud := by unfold luds; rw [h2]
      simp only
      by_cases h3 : k.length ≠ 64
      · rw [if_pos h3]
        exact ⟨_, _, rfl, .invalidParam, [], rfl, .inl (by unfold Nip47.parseUri; rw [if_neg h1, h2]; simp only [if_pos h3]), .nil _, by simp⟩
      · rw [if_neg h3]
        simp only [M.bind]
        rcases (Owned.nil h.mem).alloc hA (.ints []) with ⟨g1, e1, m1, f1⟩ | ⟨self, g1, e1, m1, n1, o1⟩
        · rw [e1]
          simp only [Option.bind_some, M.pure]
          exact ⟨_, _, rfl, .memory, [], rfl, .inr ⟨f1, rfl⟩, by rw [m1]; exact .nil _, by simp⟩
        · rw [e1]
          simp only [Option.bind_some]
          cases h4 : Nip47.hexDecode k 32 with
          | none =>
            obtain ⟨g2, e2, o2⟩ := freeConn_ok (c := ⟨self, none, 0, 0, none, none, []⟩) (rl := []) (ro := []) (lud := none)
              (lo := []) (leak := []) .null .null o1
            simp only [M.bind, e2, Option.bind_some, M.pure]
            exact ⟨_, _, rfl, .invalidParam, [], rfl, .inl (by unfold Nip47.parseUri; rw [if_neg h1, h2]; simp only [if_neg h3, h4]), o2, by simp⟩
          | some key =>
            simp only [M.bind]
            rcases o1.alloc hA (.str query) with ⟨g2, e2, m2, f2⟩ | ⟨params, g2, e2, m2, n2, o2⟩
            · obtain ⟨g3, e3, o3⟩ := freeConn_ok (h := g2) (c := ⟨self, none, 0, 0, none, none, key⟩) (rl := []) (ro := []) (lud := none)
                (lo := []) (leak := []) .null .null (by rw [m2]; exact o1)
              simp only [e2, M.bind, e3, Option.bind_some, M.pure]
              exact ⟨_, _, rfl, .memory, [], rfl, .inr ⟨f2, rfl⟩, o3, by simp⟩
            · rw [e2]
              simp only [Option.bind_some, M.bind]
              rcases o2.alloc hA (.ptrs (List.replicate 4 none)) with ⟨g3, e3, m3, f3⟩ | ⟨d, g3, e3, m3, n3, o3⟩
              · obtain ⟨g4, e4, o4⟩ := fail_ok (h := g3) (e := .memory) (params := params) (c := ⟨self, none, 0, 4, none, none, key⟩)
                  (rl := []) (ro := []) (lud := none) (lo := []) (leak := []) .null .null (by rw [m3]; exact o2)
                simp only [e3, M.bind, e4, Option.bind_some, M.pure]
                exact ⟨_, _, rfl, .memory, [], rfl, .inr ⟨f3, rfl⟩, o4, by simp⟩
              · rw [e3]
                simp only [Option.bind_some]
                have i0 : Inv h.mem g3.mem params ⟨self, some d, 0, 4, none, none, key⟩ d [] [] none [] [] :=
                  ⟨rfl, rfl, by simp, by simp, ⟨by rw [m3]; simp, .nil⟩, .null, o3.perm (List.Perm.swap _ _ _)⟩
                obtain ⟨r, g4, e4, o4⟩ := loop_ok hA (Text.tokens 0x26 query) i0
                simp only [M.bind, e4, Option.bind_some]
                have hparse : Nip47.parseUri uri = (Nip47.params ⟨[], none, key, none⟩ (Text.tokens 0x26 query) >>= fun v =>
                    if v.secret = none ∨ v.relays = [] then .err .invalidParam else .ok v) := by
                  unfold Nip47.parseUri; rw [if_neg h1, h2]; simp only [if_neg h3, h4]
                rcases o4 with ⟨e, lk, hr, hv, ho, hk⟩ | ⟨d1, ps1, rl1, lud1, lo1, lk1, hr, i1, hv, hk, hz⟩
                · rw [hr]
                  refine ⟨_, _, rfl, e, lk, rfl, ?_, ho, ?_⟩
                  · rcases hv with hv | hv
                    · left; rw [hparse, hv]; rfl
                    · exact .inr hv
                  · rw [hluds]; simpa [held] using hk
                · rw [hr]
                  simp only [M.bind]
                  obtain ⟨g5, e5, m5, o5⟩ := i1.own.free
                  have hnd := List.nodup_cons.1 i1.own.nodup
                  have keep : ∀ x ∈ d1 :: ps1 ++ (lo1 ++ (r.2.self :: lk1)), g5.mem x = g4.mem x := fun x hx => by
                    rw [m5]; exact without_other _ (by simp only [List.mem_singleton]; rintro rfl; exact hnd.1 hx)
                  have hstr : StrArr g5.mem r.2.relays r.2.count rl1 (d1 :: ps1) := by
                    rw [i1.rel, i1.cnt]
                    exact (i1.arr.mono fun x hx => keep x (List.mem_append_left _ hx)).strArr
                  have hopt : OptS g5.mem r.2.lud16 lud1 lo1 := i1.opt.mono fun x hx => keep x (by simp [hx])
                  obtain ⟨g6, e6, o6⟩ := freeConn_ok hstr hopt o5
                  have hlen : lk1.length = luds uri - 1 := by
                    rw [hluds]; simp [held] at hk hz; omega
                  have hcnt : r.2.count = 0 ↔ rl1 = [] := by
                    rw [i1.cnt, i1.arr.strs.length]; simp
                  simp only [e5, Option.bind_some]
                  by_cases hf : r.2.secret = none ∨ r.2.count = 0
                  · rw [if_pos hf]
                    simp only [M.bind, e6, Option.bind_some, M.pure]
                    refine ⟨_, _, rfl, .invalidParam, lk1, rfl, .inl ?_, o6, by omega⟩
                    rw [hparse, hv, Res.bind_ok, if_pos (by rw [← hcnt]; exact hf)]
                  · rw [if_neg hf]
                    refine ⟨_, _, rfl, rfl, ⟨rl1, r.2.secret, r.2.key, lud1⟩, _, _, lk1, ?_, rfl, rfl, hstr, hopt, o5, hlen⟩
                    rw [hparse, hv, Res.bind_ok, if_neg (by rw [← hcnt]; exact hf)]

/-- **C132.** Parsing a connection text never touches memory it does not own, whatever the allocator refuses. Either
nothing is handed out, the error is that of the text or of memory, and nothing is left allocated but at most the
Lightning addresses except one; or the connection holds the values of the text, and releasing it gives everything
back except the Lightning addresses before the last. -/
theorem C132_memory {A : Alloc} (hA : Fresh A) (uri : Bytes) (h : Heap) :
    ∃ r h', parse A uri h = some (r, h') ∧ Result A uri h r h' := by
  obtain ⟨r, h', e, hr⟩ := parse_own hA uri h
  refine ⟨r, h', e, ?_⟩
  unfold Result
  unfold ResultOwn at hr
  split at hr
  · exact hr
  · obtain ⟨h1, v, ro, lo, leak, h2, h3, h4, h5, h6, h7, h8⟩ := hr
    obtain ⟨g, e, o⟩ := freeConn_ok h5 h6 h7
    exact ⟨h1, v, g, leak, h2, ⟨⟨_, h5⟩, ⟨_, h6⟩, h3, h4⟩, e, o, h8⟩

/-- C132: while memory lasts, a text that is a connection is read. -/
theorem C132_enough_memory {A : Alloc} (hA : Fresh A) {uri : Bytes} {h : Heap} {v : Nip47.Conn}
    (hv : Nip47.parseUri uri = .ok v) (hm : ¬ Refused A h.mem) :
    ∃ c h', parse A uri h = some ((none, some c), h') ∧ Rep h'.mem c v := by
  obtain ⟨⟨st, o⟩, h', h1, h2⟩ := C132_memory hA uri h
  cases o with
  | none =>
    obtain ⟨e, leak, -, h3 | h3, -⟩ := h2
    · rw [hv] at h3; simp at h3
    · exact absurd h3.1 hm
  | some c =>
    obtain ⟨h3, w, h'', leak, h4, h5, -⟩ := h2
    simp only at h3
    subst h3
    rw [hv] at h4
    simp only [Res.ok.injEq] at h4
    subst h4
    exact ⟨c, h', h1, h5⟩

/-- C132, the part that holds: with at most one Lightning address in the text nothing is ever lost. A call that fails
leaves memory as it was; a connection that is released gives everything back. Missing: texts with several Lightning
addresses. -/
theorem C132_clean_partial {A : Alloc} (hA : Fresh A) {uri : Bytes} (hl : luds uri ≤ 1) (h : Heap) :
    ∃ r h', parse A uri h = some (r, h') ∧
      match r.2 with
      | none => r.1 ≠ none ∧ h'.mem = h.mem
      | some c => r.1 = none ∧ ∃ h'', freeConn c h' = some ((), h'') ∧ h''.mem = h.mem := by
  obtain ⟨⟨st, o⟩, h', h1, h2⟩ := C132_memory hA uri h
  refine ⟨_, _, h1, ?_⟩
  cases o with
  | none =>
    obtain ⟨e, leak, h3, -, h4, h5⟩ := h2
    have : leak = [] := List.eq_nil_of_length_eq_zero (by omega)
    subst this
    exact ⟨by rw [h3]; simp, h4.eq⟩
  | some c =>
    obtain ⟨h3, w, h'', leak, -, -, h4, h5, h6⟩ := h2
    have : leak = [] := List.eq_nil_of_length_eq_zero (by omega)
    subst this
    exact ⟨h3, h'', h4, h5.eq⟩

/-- A text with two Lightning addresses. -/
def twoLud : Bytes := Nip47.scheme ++ c!"00000000000000000000000000000000000000000000000000000000000000ff?relay=wss://r&secret=00000000000000000000000000000000000000000000000000000000000000aa&lud16=a@b&lud16=c@d"

/-- C132 as stated fails: `twoLud` is accepted, and with every allocator, after the connection is released, some block
that was not live before the call still is. -/
theorem C132_leak_refuted : (Nip47.parseUri twoLud).isOk = true ∧
    ∀ (A : Alloc) (h h1 h2 : Heap) (c : HConn), Fresh A → parse A twoLud h = some ((none, some c), h1) →
      freeConn c h1 = some ((), h2) → ∃ a, h.mem a = none ∧ h2.mem a ≠ none := by
  refine ⟨by decide +kernel, fun A h h1 h2 c hA hp hf => ?_⟩
  obtain ⟨r, h', e1, e2⟩ := C132_memory hA twoLud h
  rw [hp] at e1
  simp only [Option.some.injEq, Prod.mk.injEq] at e1
  obtain ⟨rfl, rfl⟩ := e1
  obtain ⟨-, w, h'', leak, -, -, e3, e4, e5⟩ := e2
  rw [hf] at e3
  simp only [Option.some.injEq, Prod.mk.injEq, true_and] at e3
  subst e3
  have : luds twoLud = 2 := by decide +kernel
  rw [this] at e5
  match leak, e4, e5 with
  | a :: _, e4, _ => exact ⟨a, e4.fresh a (by simp), e4.live a (by simp)⟩

/-- The hypotheses are met: a text with one Lightning address, memory enough, then one block too few. -/
example : luds (Nip47.scheme ++ c!"00000000000000000000000000000000000000000000000000000000000000ff?relay=wss://r&secret=00000000000000000000000000000000000000000000000000000000000000aa&lud16=a@b") = 1 ∧
    ((parse (Filter.Props.failAt 99) twoLud ⟨fun _ => none, 0⟩).map fun r => (r.1.1, r.1.2.isSome, r.2.tick)) = some (none, true, 6) ∧
    ((parse (Filter.Props.failAt 3) twoLud ⟨fun _ => none, 0⟩).map fun r => (r.1.1, r.1.2.isSome, r.2.tick)) = some (some .memory, false, 4) := by
  decide +kernel

end Nostr.Own.Conn.Props
