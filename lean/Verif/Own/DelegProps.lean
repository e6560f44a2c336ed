import Verif.Own.Basic
import Verif.Own.Deleg
import Verif.Own.EvProps

/-! # Property theorems: memory of delegations (C156) -/

namespace Nostr.Own.Deleg.Props
open Nostr Nostr.Heap Nostr.Own Nostr.Own.Deleg

/-! ## Specification -/

/-- The pointer and the count describe an array of the numbers `l`; no numbers is NULL. -/
def Ints (m : Mem) (p : Option Nat) (n : Nat) (l : List Int) : Prop :=
  n = l.length ∧ ((p = none ∧ l = []) ∨ ∃ a, p = some a ∧ l ≠ [] ∧ m a = some (.ints l))

/-- The structure and its blocks hold the delegation `v`. -/
structure Holds (m : Mem) (d : HDel) (v : Nip26.Delegation) : Prop where
  delegator : d.delegator = v.delegator
  text : ∃ t, d.text = some t ∧ m t = some (.str v.conditions)
  token : d.token = v.token
  kinds : Ints m d.parsed.kinds d.parsed.count (v.parsed.kinds.map Int.ofNat)
  after : d.parsed.after = v.parsed.after
  before : d.parsed.before = v.parsed.before

/-- Compared with `h0`, the memory `m` has exactly the blocks of the delegation more, and it holds `v`. -/
def Has (h0 m : Mem) (d : HDel) (v : Nip26.Delegation) : Prop :=
  Holds m d v ∧ Owned h0 m (d.text.toList ++ d.parsed.kinds.toList)

/-- Freeing the delegation restores the memory `h0`; freeing it once more does nothing. -/
def Frees (h0 : Mem) (d : HDel) (h : Heap) : Prop :=
  ∃ d' h', destroy d h = some (d', h') ∧ h'.mem = h0 ∧ destroy d' h' = some (d', h')

/-! ## Lemmas -/

theorem pushInt_ok {A : Alloc} (hA : Fresh A) {h0 : Mem} {h : Heap} {p n l b} (hk : Ints h.mem p n l) (o : Owned h0 h.mem (p.toList ++ b)) (k : Int) :
    (∃ h', pushInt A p n k h = some (none, h') ∧ h'.mem = h.mem ∧ Refused A h0) ∨
    ∃ c h', pushInt A p n k h = some (some c, h') ∧ Ints h'.mem (some c) (n + 1) (l ++ [k]) ∧ Owned h0 h'.mem (c :: b) ∧
      ∀ x ∈ b, h'.mem x = h.mem x := by
  obtain ⟨hn, ⟨rfl, rfl⟩ | ⟨a, rfl, hne, ha⟩⟩ := hk
  · subst hn
    simp only [pushInt, List.length_nil, if_true]
    rcases allocP hA o (.ints [k]) with h1 | ⟨c, h1, e1, v1, o1, k1⟩
    · exact .inl h1
    · exact .inr ⟨c, h1, e1, ⟨rfl, .inr ⟨c, rfl, by simp, by simpa using v1⟩⟩, o1, k1⟩
  · simp only [pushInt, ha, hn, if_true]
    cases hc : A (upd h.mem a none) h.tick with
    | none => exact .inl ⟨_, rfl, rfl, (Refused.here hc).back (own := a :: b) fun x hx => by
        simp only [List.mem_cons, not_or] at hx
        rw [upd_other _ _ hx.1]
        exact o.same x (by simpa using hx)⟩
    | some c =>
      obtain ⟨h2, e2, m2, o2⟩ := Owned.free (b := b) o
      have hn' := hA _ _ _ hc
      have o3 : Owned h0 (upd h.mem a none) b := by
        rw [show upd h.mem a none = without h.mem [a] by rw [← without_cons, without_nil], ← m2]; exact o2
      refine .inr ⟨c, _, rfl, ⟨by simp, .inr ⟨c, rfl, by simp, by simp⟩⟩, o3.new hn' _, fun x hx => ?_⟩
      have h1 : x ≠ c := by rintro rfl; exact o3.live _ hx hn'
      have h2 : x ≠ a := by rintro rfl; exact (List.nodup_cons.1 o.nodup).1 hx
      show upd (upd h.mem a none) c _ x = h.mem x
      rw [upd_other _ _ h1, upd_other _ _ h2]

/-- What has been read so far. -/
structure CInv (h0 m : Mem) (c : HCond) (v : Nip26.Cond) (b : List Nat) : Prop where
  kinds : Ints m c.kinds c.count (v.kinds.map Int.ofNat)
  after : c.after = v.after
  before : c.before = v.before
  own : Owned h0 m (c.kinds.toList ++ b)

/-- The outcome of reading the conditions: as the value model says, or memory ran out. -/
def Read (A : Alloc) (h0 : Mem) (b : List Nat) (val : Option Nip26.Cond) (m : M (Bool × HCond)) (h : Heap) : Prop :=
  ∃ r c h', m h = some ((r, c), h') ∧ (∀ x ∈ b, h'.mem x = h.mem x) ∧
    ((r = true ∧ ∃ v, val = some v ∧ CInv h0 h'.mem c v b) ∨
     (r = false ∧ c.kinds = none ∧ Owned h0 h'.mem b ∧ (val = none ∨ Refused A h0)))

theorem fail_read {A : Alloc} {h0 : Mem} {h : Heap} {c v b val} (i : CInv h0 h.mem c v b) (hv : val = none ∨ Refused A h0) : Read A h0 b val (fail c) h := by
  obtain ⟨h', e, o, k⟩ := freeP i.own
  refine ⟨false, { c with kinds := none, count := 0 }, h', ?_, k, .inr ⟨rfl, rfl, o, hv⟩⟩
  simp only [fail, M.bind, e, Option.bind_some, M.pure]

/-- The outcome of the value model's loop, as `parseConditions` uses it. -/
def done (o : Option (Nip26.Cond × Nat)) : Option Nip26.Cond :=
  match o with
  | none => none
  | some (c, n) => if n = 0 then none else some c

theorem loop_read {A : Alloc} (hA : Fresh A) {h0 : Mem} {b : List Nat} : ∀ (fuel : Nat) (s : Bytes) {h : Heap} {c v} (n : Nat), CInv h0 h.mem c v b →
    Read A h0 b (done (Nip26.loop fuel s v n)) (loop A fuel s c n) h := by
  intro fuel
  induction fuel with
  | zero =>
    intro s h c v n i
    cases s with
    | nil =>
      simp only [Nip26.loop, loop, done]
      by_cases hn : n = 0
      · rw [if_pos hn, if_pos hn]; exact fail_read i (.inl rfl)
      · rw [if_neg hn, if_neg hn]; exact ⟨true, c, h, rfl, fun _ _ => rfl, .inl ⟨rfl, v, rfl, i⟩⟩
    | cons x s => simp only [Nip26.loop, loop, done]; exact fail_read i (.inl rfl)
  | succ fuel ih =>
    intro s h c v n i
    have stop : Read A h0 b (done (some (v, n))) (if n = 0 then fail c else M.pure (true, c)) h := by
      simp only [done]
      by_cases hn : n = 0
      · rw [if_pos hn, if_pos hn]; exact fail_read i (.inl rfl)
      · rw [if_neg hn, if_neg hn]; exact ⟨true, c, h, rfl, fun _ _ => rfl, .inl ⟨rfl, v, rfl, i⟩⟩
    cases s with
    | nil => simp only [Nip26.loop, loop]; exact stop
    | cons x s =>
      simp only [Nip26.loop, loop]
      cases hd : (x :: s).dropWhile (· == 0x26) with
      | nil => exact stop
      | cons d t =>
        simp only [Nip26.clause]
        by_cases h1 : (d :: t).take 5 = c!"kind="
        · rw [if_pos h1, if_pos h1]
          cases hk : Nip26.kindNum ((d :: t).drop 5) with
          | none => exact fail_read i (.inl rfl)
          | some q =>
            obtain ⟨k, rest⟩ := q
            have hc : c.count = v.kinds.length := by simpa using i.kinds.1
            simp only
            by_cases h2 : c.count ≥ 256
            · rw [if_pos h2, if_pos (hc ▸ h2)]; exact fail_read i (.inl rfl)
            rw [if_neg h2, if_neg (hc ▸ h2)]
            rcases pushInt_ok hA i.kinds i.own k with ⟨h3, e3, m3, f3⟩ | ⟨p, h3, e3, k3, o3, s3⟩
            · obtain ⟨r, c', h', e, kk, hr⟩ := fail_read (val := done (Nip26.loop fuel rest { v with kinds := v.kinds ++ [k] } (n + 1)))
                (show CInv h0 h3.mem c v b from m3 ▸ i) (.inr f3)
              refine ⟨r, c', h', ?_, fun x hx => by rw [kk x hx, m3], hr⟩
              simp only [M.bind, e3, Option.bind_some, e]
            · obtain ⟨r, c', h', e, kk, hr⟩ := ih rest (c := { c with kinds := some p, count := c.count + 1 }) (v := { v with kinds := v.kinds ++ [k] }) (n + 1)
                ⟨by simpa using k3, i.after, i.before, o3⟩
              refine ⟨r, c', h', ?_, fun x hx => by rw [kk x hx, s3 x hx], hr⟩
              simp only [M.bind, e3, Option.bind_some, e]
        rw [if_neg h1, if_neg h1]
        by_cases h2 : (d :: t).take 11 = c!"created_at>"
        · rw [if_pos h2, if_pos h2]
          cases hk : Nip26.timeNum ((d :: t).drop 11) with
          | none => exact fail_read i (.inl rfl)
          | some q => exact ih q.2 (n + 1) ⟨i.kinds, rfl, i.before, i.own⟩
        rw [if_neg h2, if_neg h2]
        by_cases h3 : (d :: t).take 11 = c!"created_at<"
        · rw [if_pos h3, if_pos h3]
          cases hk : Nip26.timeNum ((d :: t).drop 11) with
          | none => exact fail_read i (.inl rfl)
          | some q => exact ih q.2 (n + 1) ⟨i.kinds, i.after, rfl, i.own⟩
        rw [if_neg h3, if_neg h3]
        exact fail_read i (.inl rfl)

theorem parse_read {A : Alloc} (hA : Fresh A) {h0 : Mem} {b : List Nat} (s : Bytes) {h : Heap} (o : Owned h0 h.mem b) :
    Read A h0 b (Nip26.parseConditions s) (parse A s) h := by
  unfold Nip26.parseConditions parse
  by_cases hs : s = []
  · rw [if_pos hs, if_pos hs]
    exact ⟨false, {}, h, rfl, fun _ _ => rfl, .inr ⟨rfl, rfl, o, .inl rfl⟩⟩
  rw [if_neg hs, if_neg hs]
  have := loop_read hA 100 s (c := {}) (v := ⟨[], none, none⟩) 0 (h := h) (b := b) ⟨⟨rfl, .inl ⟨rfl, rfl⟩⟩, rfl, rfl, o⟩
  unfold done at this
  exact this

theorem digest_ok {A : Alloc} (hA : Fresh A) (C : Event.Crypto) (pk s : Bytes) {h0 : Mem} {own : List Nat} {h : Heap} (o : Owned h0 h.mem own) :
    ∃ r h', digest A C pk s h = some (r, h') ∧ h'.mem = h.mem ∧ (r = Nip26.digest C pk s ∨ (r = .err .memory ∧ Refused A h0)) := by
  unfold digest
  by_cases hl : s.length > 4096
  · rw [if_pos hl]
    exact ⟨_, h, rfl, rfl, .inl (by unfold Nip26.digest; rw [if_pos hl])⟩
  rw [if_neg hl]
  rcases allocP hA o Ev.blob with ⟨h1, e1, m1, f1⟩ | ⟨t, h1, e1, v1, o1, k1⟩
  · refine ⟨.err .memory, h1, ?_, m1, .inr ⟨rfl, f1⟩⟩
    simp only [M.bind, e1, Option.bind_some, M.pure]
  · obtain ⟨h2, e2, o2, k2⟩ := freeP (p := some t) (b := own) o1
    refine ⟨Nip26.digest C pk s, h2, ?_, ?_, .inl rfl⟩
    · simp only [M.bind, e1, e2, Option.bind_some, M.pure]
    · funext x
      by_cases hx : x ∈ own
      · rw [k2 x hx, k1 x hx]
      · rw [o2.same x hx, o.same x hx]

theorem digest_ub (C : Event.Crypto) (pk s : Bytes) : Nip26.digest C pk s ≠ .ub := by
  unfold Nip26.digest; split <;> simp

theorem destroy_ok {h0 : Mem} {h : Heap} {d v} (i : Has h0 h.mem d v) : Frees h0 d h := by
  obtain ⟨h1, e1, o1, -⟩ := freeP i.2
  obtain ⟨h2, e2, o2, -⟩ := freeP (p := d.parsed.kinds) (b := []) (by simpa using o1)
  refine ⟨{ delegator := List.replicate 32 0, token := List.replicate 64 0 }, h2, ?_, o2.eq, ?_⟩
  · simp only [destroy, M.bind, e1, e2, Option.bind_some, M.pure]
  · rfl

/-- The end of `create` and of `readTag`: the copy of the conditions, and their parts. -/
theorem keep_ok {A : Alloc} (hA : Fresh A) (pk tk s : Bytes) (x : Err) (g : HCond → HDel) (hg : ∀ c, c.kinds = none → (g c).text = none ∧ (g c).parsed.kinds = none) (h : Heap) :
    (∃ d v h', M.bind (alloc A (.str s)) (fun t => match t with
        | none => M.pure (some Err.memory, {})
        | some t => M.bind (parse A s) fun r =>
            if r.1 then M.pure (none, ⟨pk, some t, tk, r.2⟩) else M.bind (free (some t)) fun _ => M.pure (some x, g r.2)) h = some ((none, d), h') ∧
      Nip26.parseConditions s = some v ∧ Has h.mem h'.mem d ⟨pk, s, tk, v⟩) ∨
    ∃ y d h', M.bind (alloc A (.str s)) (fun t => match t with
        | none => M.pure (some Err.memory, {})
        | some t => M.bind (parse A s) fun r =>
            if r.1 then M.pure (none, ⟨pk, some t, tk, r.2⟩) else M.bind (free (some t)) fun _ => M.pure (some x, g r.2)) h = some ((some y, d), h') ∧
      h'.mem = h.mem ∧ d.text = none ∧ d.parsed.kinds = none ∧
      ((Nip26.parseConditions s = none ∧ y = x) ∨ (Refused A h.mem ∧ (y = .memory ∨ y = x))) := by
  rcases allocP hA (Owned.nil h.mem) (.str s) with ⟨h1, e1, m1, f1⟩ | ⟨t, h1, e1, v1, o1, -⟩
  · right
    refine ⟨.memory, {}, h1, ?_, m1, rfl, rfl, .inr ⟨f1, .inl rfl⟩⟩
    simp only [M.bind, e1, Option.bind_some, M.pure]
  · obtain ⟨r, c, h2, e2, k2, hr⟩ := parse_read hA s o1
    rcases hr with ⟨rfl, v, hv, i⟩ | ⟨rfl, hc, o2, hv⟩
    · left
      refine ⟨⟨pk, some t, tk, c⟩, v, h2, ?_, hv, ⟨rfl, ⟨t, rfl, by rw [k2 t (by simp)]; exact v1⟩, rfl, i.kinds, i.after, i.before⟩, ?_⟩
      · simp only [M.bind, e1, e2, Option.bind_some, M.pure, if_true]
      · exact i.own.perm (by simpa using List.perm_append_comm)
    · right
      obtain ⟨h3, e3, o3, -⟩ := freeP (p := some t) (b := []) o2
      refine ⟨x, g c, h3, ?_, o3.eq, (hg c hc).1, (hg c hc).2, ?_⟩
      · simp only [M.bind, e1, e2, e3, Option.bind_some, M.pure, Bool.false_eq_true, if_false]
      · rcases hv with hv | hv
        · exact .inl ⟨hv, rfl⟩
        · exact .inr ⟨hv, .inr rfl⟩

/-! ## C156 -/

/-- C156: creating a delegation. On success the structure holds exactly the delegation described by the arguments, the
memory has exactly its blocks more, and freeing it gives back the memory as it was. On failure nothing is left behind
and the structure has no pointers, and the status is the one the arguments demand unless memory ran out. Missing: when
memory runs out the status need not say so (`C156_blame_refuted`). -/
theorem C156_create_partial {A : Alloc} (hA : Fresh A) (C : Event.Crypto) (rand : Option Bytes) (sk pk s : Bytes) (h : Heap) :
    (∃ d v h', create A C rand sk pk s h = some ((none, d), h') ∧ Nip26.create C rand sk pk s = .ok v ∧ Has h.mem h'.mem d v ∧ Frees h.mem d h') ∨
    ∃ x d h', create A C rand sk pk s h = some ((some x, d), h') ∧ h'.mem = h.mem ∧ Frees h.mem d h' ∧
      (Nip26.create C rand sk pk s = .err x ∨ (Refused A h.mem ∧ (x = .memory ∨ x = .invalidParam))) := by
  have none_free : ∀ {d : HDel} {h' : Heap}, h'.mem = h.mem → d.text = none → d.parsed.kinds = none → Frees h.mem d h' := by
    intro d h' hm h1 h2
    refine ⟨{ delegator := List.replicate 32 0, token := List.replicate 64 0 }, h', ?_, hm, rfl⟩
    simp only [destroy, h1, h2, M.bind, free, Option.bind_some, M.pure]
  unfold create Nip26.create
  obtain ⟨r, h1, e1, m1, hr⟩ := digest_ok hA C pk s (Owned.nil h.mem)
  simp only [M.bind, e1, Option.bind_some]
  rcases hr with rfl | ⟨rfl, f1⟩
  · cases hd : Nip26.digest C pk s with
    | ub => exact absurd hd (digest_ub C pk s)
    | err x => exact .inr ⟨x, {}, h1, rfl, m1, none_free m1 rfl rfl, .inl rfl⟩
    | ok dg =>
      simp only [Res.bind_ok]
      cases C.pubOf sk with
      | none => exact .inr ⟨_, {}, h1, rfl, m1, none_free m1 rfl rfl, .inl rfl⟩
      | some p =>
        cases rand with
        | none => exact .inr ⟨_, {}, h1, rfl, m1, none_free m1 rfl rfl, .inl rfl⟩
        | some r =>
          simp only
          cases C.sign sk dg r with
          | none => exact .inr ⟨_, {}, h1, rfl, m1, none_free m1 rfl rfl, .inl rfl⟩
          | some tk =>
            simp only
            rcases keep_ok hA p tk s .invalidParam (fun _ => {}) (fun _ _ => ⟨rfl, rfl⟩) h1 with ⟨d, v, h2, e2, hv, hd⟩ | ⟨x, d, h2, e2, m2, t2, k2, hx⟩
            · rw [m1] at hd
              rw [hv]
              exact .inl ⟨d, _, h2, e2, rfl, hd, destroy_ok hd⟩
            · rw [m1] at m2 hx
              refine .inr ⟨x, d, h2, e2, m2, none_free m2 t2 k2, ?_⟩
              rcases hx with ⟨hv, rfl⟩ | hx
              · left; rw [hv]
              · exact .inr hx
  · exact .inr ⟨.memory, {}, h1, rfl, m1, none_free m1 rfl rfl, .inr ⟨f1, .inl rfl⟩⟩

/-- C156: reading the delegation of any event, likewise. -/
theorem C156_get_partial {A : Alloc} (hA : Fresh A) (e : Event.Event) (h : Heap) :
    (∃ d v h', get A e h = some ((none, d), h') ∧ Nip26.getDelegation e = .ok v ∧ Has h.mem h'.mem d v ∧ Frees h.mem d h') ∨
    ∃ x d h', get A e h = some ((some x, d), h') ∧ h'.mem = h.mem ∧ Frees h.mem d h' ∧
      (Nip26.getDelegation e = .err x ∨ (Refused A h.mem ∧ (x = .memory ∨ x = .invalidEvent))) := by
  have none_free : ∀ {d : HDel} {h' : Heap}, h'.mem = h.mem → d.text = none → d.parsed.kinds = none → Frees h.mem d h' := by
    intro d h' hm h1 h2
    refine ⟨{ delegator := List.replicate 32 0, token := List.replicate 64 0 }, h', ?_, hm, rfl⟩
    simp only [destroy, h1, h2, M.bind, free, Option.bind_some, M.pure]
  have bad : ∀ x, ∃ d h', (M.pure (some x, {}) : M (Option Err × HDel)) h = some ((some x, d), h') ∧ h'.mem = h.mem ∧ Frees h.mem d h' :=
    fun x => ⟨{}, h, rfl, rfl, none_free rfl rfl rfl⟩
  unfold get Nip26.getDelegation
  generalize e.tags = ts
  induction ts with
  | nil => exact .inr ⟨.notFound, {}, h, rfl, rfl, none_free rfl rfl rfl, .inl rfl⟩
  | cons t ts ih =>
    match t with
    | [] => exact ih
    | [_] => exact ih
    | [_, _] => exact ih
    | [_, _, _] => exact ih
    | name :: a :: b :: c :: _ =>
      simp only [getLoop, Nip26.getLoop]
      by_cases hn : name = c!"delegation"
      · rw [if_pos hn, if_pos hn]
        unfold readTag Nip26.readTag
        by_cases h1 : b.length = 0 ∨ b.length > 4096
        · rw [if_pos h1, if_pos h1]; exact .inr ⟨_, {}, h, rfl, rfl, none_free rfl rfl rfl, .inl rfl⟩
        rw [if_neg h1, if_neg h1]
        by_cases h2 : (!Nip26.isValidHex a 64) = true
        · rw [if_pos h2, if_pos h2]; exact .inr ⟨_, {}, h, rfl, rfl, none_free rfl rfl rfl, .inl rfl⟩
        rw [if_neg h2, if_neg h2]
        by_cases h3 : (!Nip26.isValidHex c 128) = true
        · rw [if_pos h3, if_pos h3]; exact .inr ⟨_, {}, h, rfl, rfl, none_free rfl rfl rfl, .inl rfl⟩
        rw [if_neg h3, if_neg h3]
        cases Hex.hexDecode a 32 with
        | none => exact .inr ⟨_, {}, h, rfl, rfl, none_free rfl rfl rfl, .inl rfl⟩
        | some pk =>
          simp only
          cases Hex.hexDecode c 64 with
          | none => exact .inr ⟨_, {}, h, rfl, rfl, none_free rfl rfl rfl, .inl rfl⟩
          | some tk =>
            simp only
            rcases keep_ok hA pk tk b .invalidEvent (fun c => { parsed := c }) (fun c hc => ⟨rfl, hc⟩) h with ⟨d, v, h2, e2, hv, hd⟩ | ⟨x, d, h2, e2, m2, t2, k2, hx⟩
            · rw [hv]
              exact .inl ⟨d, _, h2, e2, rfl, hd, destroy_ok hd⟩
            · refine .inr ⟨x, d, h2, e2, m2, none_free m2 t2 k2, ?_⟩
              rcases hx with ⟨hv, rfl⟩ | hx
              · left; rw [hv]
              · exact .inr hx
      · rw [if_neg hn, if_neg hn]; exact ih

theorem verify_ok {A : Alloc} (hA : Fresh A) (C : Event.Crypto) {h0 : Mem} {h : Heap} {d v} (i : Has h0 h.mem d v) (pk : Bytes) :
    ∃ r h', verify A C d pk h = some (r, h') ∧ h'.mem = h.mem ∧
      ((r = none ∧ Nip26.verify C v pk = .ok ()) ∨ ∃ x, r = some x ∧ (Nip26.verify C v pk = .err x ∨ (x = .memory ∧ Refused A h0))) := by
  obtain ⟨t, ht, hm⟩ := i.1.text
  obtain ⟨q, h1, e1, m1, hq⟩ := digest_ok hA C pk v.conditions i.2
  have e0 : loadStr t h = some (v.conditions, h) := by simp only [loadStr, hm]
  unfold verify
  simp only [ht, M.bind, e0, e1, Option.bind_some, i.1.delegator, i.1.token]
  rcases hq with rfl | ⟨rfl, f1⟩
  · unfold Nip26.verify
    cases hd : Nip26.digest C pk v.conditions with
    | ub => exact absurd hd (digest_ub C pk _)
    | err x => exact ⟨some x, h1, rfl, m1, .inr ⟨x, rfl, .inl rfl⟩⟩
    | ok dg =>
      simp only [Res.bind_ok]
      by_cases h2 : (!C.validPub v.delegator) = true
      · rw [if_pos h2, if_pos h2]; exact ⟨_, h1, rfl, m1, .inr ⟨_, rfl, .inl rfl⟩⟩
      rw [if_neg h2, if_neg h2]
      by_cases h3 : (!C.verify v.delegator dg v.token) = true
      · rw [if_pos h3, if_pos h3]; exact ⟨_, h1, rfl, m1, .inr ⟨_, rfl, .inl rfl⟩⟩
      rw [if_neg h3, if_neg h3]
      exact ⟨none, h1, rfl, m1, .inl ⟨rfl, rfl⟩⟩
  · exact ⟨some .memory, h1, rfl, m1, .inr ⟨_, rfl, .inr ⟨rfl, f1⟩⟩⟩

theorem any_cast (ks : List Nat) (k : Nat) : (ks.map Int.ofNat).any (· == (k : Int)) = ks.any (· == k) := by
  induction ks with
  | nil => rfl
  | cons a ks ih =>
    simp only [List.map_cons, List.any_cons, ih]
    congr 1
    rw [Bool.eq_iff_iff]; simp only [Int.ofNat_eq_natCast, beq_iff_eq]; omega

theorem check_ok {h : Heap} {d v} (i : Holds h.mem d v) (kind : Nat) (t : Int) :
    ∃ r, check d kind t h = some (r, h) ∧ ((r = none ∧ Nip26.check v kind t = .ok ()) ∨ ∃ x, r = some x ∧ Nip26.check v kind t = .err x) := by
  have e1 : kindAllowed d.parsed kind h = some (Nip26.kindAllowed v.parsed kind, h) := by
    unfold kindAllowed Nip26.kindAllowed
    obtain ⟨hn, ⟨hp, hk⟩ | ⟨a, hp, hne, ha⟩⟩ := i.kinds
    · rw [hn, List.map_eq_nil_iff.1 hk]; rfl
    · have hne : v.parsed.kinds ≠ [] := by simpa using hne
      have h0 : d.parsed.count ≠ 0 := by rw [hn]; simpa using hne
      rw [if_neg h0, hp]
      simp only [ha, List.length_map, hn, Nat.le_refl, if_true]
      rw [if_neg (by simpa using hne), List.take_of_length_le (by simp), any_cast]
  unfold check Nip26.check
  simp only [M.bind, e1, Option.bind_some, i.after, i.before]
  by_cases h1 : (!Nip26.kindAllowed v.parsed kind) = true
  · rw [if_pos h1, if_pos h1]; exact ⟨_, rfl, .inr ⟨_, rfl, rfl⟩⟩
  rw [if_neg h1, if_neg h1]
  by_cases h2 : (v.parsed.after.any fun s => decide (t ≤ s)) = true
  · rw [if_pos h2, if_pos h2]; exact ⟨_, rfl, .inr ⟨_, rfl, rfl⟩⟩
  rw [if_neg h2, if_neg h2]
  by_cases h3 : (v.parsed.before.any fun s => decide (t ≥ s)) = true
  · rw [if_pos h3, if_pos h3]; exact ⟨_, rfl, .inr ⟨_, rfl, rfl⟩⟩
  rw [if_neg h3, if_neg h3]
  exact ⟨none, rfl, .inl ⟨rfl, rfl⟩⟩

/-- C156: verifying the delegation of any event leaves the memory as it was. It accepts only what the event, as a value,
deserves, and refuses for another reason only if memory ran out. -/
theorem C156_verify_partial {A : Alloc} (hA : Fresh A) (C : Event.Crypto) (e : Event.Event) (h : Heap) :
    ∃ r h', verifyDelegation A C e h = some (r, h') ∧ h'.mem = h.mem ∧
      ((r = none ∧ Nip26.verifyDelegation C e = .ok ()) ∨
       ∃ x, r = some x ∧ (Nip26.verifyDelegation C e = .err x ∨ (Refused A h.mem ∧ (x = .memory ∨ x = .invalidEvent)))) := by
  unfold verifyDelegation Nip26.verifyDelegation
  rcases C156_get_partial hA e h with ⟨d, v, h1, e1, hv, hd, -⟩ | ⟨x, d, h1, e1, m1, -, hx⟩
  · obtain ⟨r, h2, e2, m2, hr⟩ := verify_ok hA C hd e.pubkey
    have hd2 : Has h.mem h2.mem d v := m2 ▸ hd
    simp only [M.bind, e1, e2, hv, Option.bind_some, Res.bind_ok]
    rcases hr with ⟨rfl, hr⟩ | ⟨x, rfl, hr⟩
    · obtain ⟨q, e3, hq⟩ := check_ok hd2.1 e.kind e.createdAt
      obtain ⟨d4, h4, e4, m4, -⟩ := destroy_ok hd2
      simp only [M.bind, e3, e4, hr, Option.bind_some, Res.bind_ok, M.pure]
      refine ⟨q, h4, rfl, m4, ?_⟩
      rcases hq with hq | ⟨x, hq1, hq2⟩
      · exact .inl hq
      · exact .inr ⟨x, hq1, .inl hq2⟩
    · obtain ⟨d4, h4, e4, m4, -⟩ := destroy_ok hd2
      simp only [M.bind, e4, Option.bind_some, M.pure]
      refine ⟨some x, h4, rfl, m4, .inr ⟨x, rfl, ?_⟩⟩
      rcases hr with hr | ⟨rfl, f⟩
      · left; rw [hr, Res.bind_err]
      · exact .inr ⟨f, .inl rfl⟩
  · simp only [M.bind, e1, Option.bind_some, M.pure]
    refine ⟨some x, h1, rfl, m1, .inr ⟨x, rfl, ?_⟩⟩
    rcases hx with hx | hx
    · left; rw [hx, Res.bind_err]
    · exact .inr hx

/-! ## Cases -/

/-- Empty memory. -/
def start : Heap := ⟨fun _ => none, 0⟩

/-- Addresses one after the other; the allocations from `k` on fail. -/
def upTo (k : Nat) : Alloc := fun m n => if n < k ∧ m n = none then some n else none

theorem upTo_fresh (k : Nat) : Fresh (upTo k) := by
  intro m n a h
  unfold upTo at h
  split at h
  · rename_i hx; simp only [Option.some.injEq] at h; rw [← h]; exact hx.2
  · simp at h

/-- A run with a key whose signature is known: the status, and whether the memory is as before after `free`. -/
def run (k : Nat) (s : Bytes) : Option (Option Err × Bool) :=
  match keep (upTo k) [1] [2] s start with
  | some ((r, d), h1) => match destroy d h1 with
    | some (_, h2) => some (r, (List.range 9).all fun a => (h2.mem a).isNone)
    | none => none
  | none => none

example : run 9 c!"kind=1&kind=7&created_at>5" = some (none, true) := by decide +kernel

example : run 9 c!"kind=1&kind=x" = some (some .invalidParam, true) := by decide +kernel

example : run 0 c!"kind=1" = some (some .memory, true) := by decide +kernel

theorem parse_short : (parse (upTo 2) (c!"kind=1") ⟨upd (fun _ => none) 1 (some (.str c!"kind=1")), 2⟩).map (fun r => (r.1, r.2.mem 1)) =
    some ((false, {}), some (.str c!"kind=1")) := by decide +kernel

/-- C156 fails: when memory for the kinds is refused, conditions that are valid are reported as invalid — for every key and
every signature scheme. -/
theorem C156_blame_refuted (C : Event.Crypto) {rand : Option Bytes} {sk pk : Bytes} {v : Nip26.Delegation} (hv : Nip26.create C rand sk pk (c!"kind=1") = .ok v) :
    ∃ A, Fresh A ∧ ∃ h', create A C rand sk pk (c!"kind=1") start = some ((some .invalidParam, {}), h') := by
  refine ⟨upTo 2, upTo_fresh 2, ?_⟩
  have e1 : digest (upTo 2) C pk (c!"kind=1") start = some (Nip26.digest C pk (c!"kind=1"), ⟨upd (upd (fun _ => none) 0 (some Ev.blob)) 0 none, 1⟩) := rfl
  have m1 : upd (upd (fun _ => none) 0 (some Ev.blob)) 0 none = fun _ => none := by funext x; unfold upd; split <;> rfl
  rw [m1] at e1
  unfold Nip26.create at hv
  unfold create
  simp only [M.bind, e1, Option.bind_some]
  cases hd : Nip26.digest C pk (c!"kind=1") with
  | ub => rw [hd] at hv; simp at hv
  | err x => rw [hd] at hv; simp at hv
  | ok dg =>
    rw [hd] at hv
    simp only [Res.bind_ok] at hv ⊢
    cases hp : C.pubOf sk with
    | none => rw [hp] at hv; simp at hv
    | some p =>
      rw [hp] at hv
      cases rand with
      | none => simp at hv
      | some r =>
        simp only at hv ⊢
        cases hs : C.sign sk dg r with
        | none => rw [hs] at hv; simp at hv
        | some tk =>
          simp only
          have e2 : alloc (upTo 2) (.str (c!"kind=1")) ⟨fun _ => none, 1⟩ = some (some 1, ⟨upd (fun _ => none) 1 (some (.str c!"kind=1")), 2⟩) := rfl
          have hps := parse_short
          cases h3 : parse (upTo 2) (c!"kind=1") ⟨upd (fun _ => none) 1 (some (.str c!"kind=1")), 2⟩ with
          | none => rw [h3] at hps; simp at hps
          | some q =>
            obtain ⟨⟨b, c⟩, h4⟩ := q
            rw [h3] at hps
            simp only [Option.map_some, Option.some.injEq, Prod.mk.injEq] at hps
            obtain ⟨⟨rfl, rfl⟩, hm⟩ := hps
            refine ⟨⟨upd h4.mem 1 none, h4.tick⟩, ?_⟩
            simp only [keep, M.bind, e2, h3, Option.bind_some, Bool.false_eq_true, if_false, free, hm, Option.isSome_some, if_true, M.pure]

end Nostr.Own.Deleg.Props
