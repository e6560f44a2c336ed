import Verif.Own.Mail
import Verif.Own.BuildProps
import Verif.Gift.Props

/-!
# Property theorems: C150, C151

C150: sending a message or wrapping an event delivers exactly the gift wrap, or leaves nothing behind. C151: opening one delivers
exactly the event inside, or leaves nothing behind.
-/

namespace Nostr.Own.Mail.Props
open Nostr Nostr.Heap Nostr.Event Nostr.Own Nostr.Own.Ev Nostr.Own.Ev.Props Nostr.Own.Build Nostr.Own.Build.Props Nostr.Own.Defined

/-! ## Specification

`Delivered`, `Undone` and `Dangling` are those of the event builders. -/

/-- As `Undone`; the value function fails too, perhaps naming another reason. -/
def UndoneW (A : Alloc) (m : Mem) (v : Res Event) (o : Out) (h : Heap) : Prop :=
  ∃ x, o.status = some x ∧ o.ev = none ∧ ((∃ y, v = .err y) ∨ (Refused A m ∧ x = .memory)) ∧ h.mem = m

/-- Opening has delivered the event `v`: it holds its content, and destroying it leaves memory as it was before. -/
def Opened (m : Mem) (v : Res Event) (r : Except Err (Event × HEv)) (h : Heap) : Prop :=
  ∃ w e, r = .ok (w, e) ∧ v = .ok w ∧ e.content.bind h.mem = w.content.map .str ∧ ∃ h', destroy e h = some ((), h') ∧ h'.mem = m

/-- Opening has failed and left memory as it was, for a reason: `v` is that failure, or memory ran out. -/
def Closed (A : Alloc) (m : Mem) (v : Res Event) (r : Except Err (Event × HEv)) (h : Heap) : Prop :=
  ∃ x, r = .error x ∧ (v = .err x ∨ Refused A m) ∧ h.mem = m

/-! ## Lemmas -/

theorem Owned.trans {h0 m1 m2 : Mem} {l k : List Nat} (o1 : Owned h0 m1 l) (o2 : Owned m1 m2 k) : Owned h0 m2 (k ++ l) := by
  have hd : ∀ a ∈ k, a ∉ l := fun a hk hl => o1.live a hl (o2.fresh a hk)
  refine ⟨?_, ?_, ?_, ?_⟩
  · rw [List.nodup_append]
    exact ⟨o2.nodup, o1.nodup, fun a ha b hb hab => hd a ha (hab ▸ hb)⟩
  · intro a ha
    rcases List.mem_append.1 ha with ha | ha
    · rw [← o1.same a (hd a ha)]; exact o2.fresh a ha
    · exact o1.fresh a ha
  · intro a ha
    rcases List.mem_append.1 ha with ha | ha
    · exact o2.live a ha
    · rw [o2.same a fun hk => hd a hk ha]; exact o1.live a ha
  · intro a ha
    simp only [List.mem_append, not_or] at ha
    rw [o2.same a ha.1, o1.same a ha.2]

theorem destroy_owned {h0 : Mem} {h : Heap} {e : HEv} {extra : List Nat} (o : Owned h0 h.mem (blocks e ++ extra)) :
    ∃ h', destroy e h = some ((), h') ∧ Owned h0 h'.mem extra ∧ ∀ x ∈ extra, h'.mem x = h.mem x := by
  unfold destroy
  simp only [M.bind]
  have o : Owned h0 h.mem (e.content.toList ++ (e.memory :: (e.arena :: (e.tags.toList ++ (e.self :: extra))))) := by
    simpa [blocks] using o
  obtain ⟨h1, e1, o1, k1⟩ := freeP o
  obtain ⟨h2, e2, o2, k2⟩ := freeP (p := some e.memory) o1
  obtain ⟨h3, e3, o3, k3⟩ := freeP (p := some e.arena) o2
  obtain ⟨h4, e4, o4, k4⟩ := freeP o3
  obtain ⟨h5, e5, o5, k5⟩ := freeP (p := some e.self) o4
  simp only [M.bind, e1, e2, e3, e4, Option.bind_some]
  refine ⟨h5, e5, o5, fun x hx => ?_⟩
  rw [k5 x hx, k4 x (by simp [hx]), k3 x (by simp [hx]), k2 x (by simp [hx]), k1 x (by simp [hx])]

/-- An event beside the blocks of another, which is destroyed. -/
theorem destroy_beside {h0 : Mem} {h : Heap} {e f : HEv} {c} (d : Held h0 h.mem e c (blocks f)) :
    ∃ h', destroy f h = some ((), h') ∧ Held h0 h'.mem e c [] := by
  obtain ⟨h', e1, o1, k1⟩ := destroy_owned (e := f) (extra := blocks e) (d.own.perm List.perm_append_comm)
  exact ⟨h', e1, by simpa using o1, text_mono d.text fun x hx => k1 x (by simp [blocks, hx])⟩

theorem cipher_ok {A : Alloc} (hA : Fresh A) {h0 : Mem} {h : Heap} {extra : List Nat} (o : Owned h0 h.mem extra) (text : Res Bytes)
    (enc : Bytes → Res Bytes) (hu : (text >>= enc) ≠ .ub) :
    (∃ x h', cipher A text enc h = some (.error x, h') ∧ Owned h0 h'.mem extra ∧ ((text >>= enc) = .err x ∨ (Refused A h0 ∧ x = .memory))) ∨
    ∃ ct c h', cipher A text enc h = some (.ok (ct, c), h') ∧ Owned h0 h'.mem (c :: extra) ∧ (text >>= enc) = .ok ct := by
  unfold cipher
  cases text with
  | ub => exact absurd rfl hu
  | err x => exact .inl ⟨x, h, rfl, o, .inl rfl⟩
  | ok t =>
    simp only [M.bind, Res.bind_ok] at hu ⊢
    rcases allocP hA o (.str t) with ⟨h1, e1, m1, f1⟩ | ⟨j, h1, e1, -, o1, -⟩
    · simp only [M.bind, e1, Option.bind_some, M.pure]
      exact .inl ⟨.memory, h1, rfl, by rw [m1]; exact o, .inr ⟨f1, rfl⟩⟩
    · simp only [M.bind, e1, Option.bind_some]
      cases he : enc t with
      | ub => exact absurd he hu
      | err x =>
        obtain ⟨h2, e2, o2, -⟩ := freeP (p := some j) o1
        simp only [M.bind, e2, Option.bind_some, M.pure]
        exact .inl ⟨x, h2, rfl, o2, .inl rfl⟩
      | ok ct =>
        simp only
        rcases allocP hA o1 (.str ct) with ⟨h2, e2, m2, f2⟩ | ⟨c, h2, e2, -, o2, -⟩
        · obtain ⟨h3, e3, o3, -⟩ := freeP (h := h2) (p := some j) (by rw [m2]; exact o1)
          simp only [M.bind, e2, e3, Option.bind_some, M.pure]
          exact .inl ⟨.memory, h3, rfl, o3, .inr ⟨f2, rfl⟩⟩
        · obtain ⟨h3, e3, o3, -⟩ := freeP (p := some j) (b := c :: extra) (o2.perm (List.Perm.swap _ _ _))
          simp only [M.bind, e2, e3, Option.bind_some, M.pure]
          exact .inr ⟨ct, c, h3, rfl, o3, rfl⟩

/-- What is known at the end of a call, `old` being the caller's pointer before. -/
def EndsP (A : Alloc) (h0 : Mem) (extra : List Nat) (old : Option Nat) (v : Res Event) (m : M Out) (h : Heap) : Prop :=
  (∃ x p h', m h = some (⟨some x, p, none⟩, h') ∧ Owned h0 h'.mem extra ∧ (v = .err x ∨ (Refused A h0 ∧ x = .memory)) ∧
    (x ≠ .memory → p = none ∨ p = old)) ∨
  ∃ w e' h', m h = some (⟨none, some e'.self, some (w, e')⟩, h') ∧ v = .ok w ∧ Held h0 h'.mem e' w.content extra

theorem EndsP.of_ends {A : Alloc} {h0 : Mem} {extra : List Nat} {old : Option Nat} {v : Res Event} {m : M Out} {h : Heap}
    (he : Ends A h0 extra true v m h) : EndsP A h0 extra old v m h := by
  rcases he with ⟨x, p, h', e1, o1, hx, hp⟩ | h2
  · exact .inl ⟨x, p, h', e1, o1, hx, fun _ => .inl hp⟩
  · exact .inr h2

/-- The same for a call given as a call and its argument. -/
theorem EndsP.congr {A : Alloc} {h0 : Mem} {extra : List Nat} {old : Option Nat} {v v' : Res Event} {m m' : M Out} {h h' : Heap}
    (he : EndsP A h0 extra old v m h) (hv : v' = v) (hm : m' h' = m h) : EndsP A h0 extra old v' m' h' := by
  subst hv
  unfold EndsP at he ⊢
  rw [hm]; exact he

theorem refuseP {A : Alloc} {h0 : Mem} {extra : List Nat} {old : Option Nat} {v : Res Event} {h : Heap} {x : Err} (o : Owned h0 h.mem extra)
    (hv : v = .err x ∨ (Refused A h0 ∧ x = .memory)) : EndsP A h0 extra old v (refuse old x) h :=
  .inl ⟨x, old, h, rfl, o, hv, fun _ => .inr rfl⟩

theorem fill_ok {A : Alloc} (hA : Fresh A) {h0 : Mem} {extra : List Nat} {old : Option Nat} (cfg : Option Config.Config)
    (grow : Event → List Bytes → Bool) (ct : Bytes) (c : Nat) (v : Res Event) (os : List Op) {e : HEv} {h : Heap}
    (hu : (v >>= fun v => val cfg { v with content := some ct } os) ≠ .ub) (hk : Keeps os) (d : Held h0 h.mem e none (c :: extra)) :
    EndsP A h0 extra old (v >>= fun v => val cfg { v with content := some ct } os) (fill A cfg grow ct c v os e) h := by
  unfold fill
  cases v with
  | ub => exact absurd rfl hu
  | err x =>
    obtain ⟨h1, e1, o1⟩ := destroy_ok d
    obtain ⟨h2, e2, o2, -⟩ := freeP (p := some c) o1
    left
    exact ⟨x, none, h2, by simp only [M.bind, e1, e2, Option.bind_some, M.pure], o2, .inl rfl, fun _ => .inl rfl⟩
  | ok v =>
    simp only [Res.bind_ok] at hu ⊢
    rcases setText_ok hA d ct with ⟨h1, e1, f1, d1⟩ | ⟨a, h1, e1, d1⟩
    · obtain ⟨h2, e2, d2⟩ := held_free (p := some c) d1
      refine (EndsP.of_ends (giveUp_ok d2 true .memory (.inr ⟨f1, rfl⟩))).congr rfl ?_
      simp only [M.bind, e1, e2, Option.bind_some]
    · obtain ⟨h2, e2, d2⟩ := held_free (p := some c) d1
      refine (EndsP.of_ends (run_ok hA cfg grow true os { v with content := some ct } _ h2 hu hk d2)).congr rfl ?_
      simp only [M.bind, e1, e2, Option.bind_some]

theorem sealed_ok {A : Alloc} (hA : Fresh A) {h0 : Mem} {extra : List Nat} {old : Option Nat} (cfg : Option Config.Config)
    (grow : Event → List Bytes → Bool) (text : Res Bytes) (enc : Bytes → Res Bytes) (v : Res Event) (os : List Op) {h : Heap}
    (hu : (text >>= enc >>= fun ct => v >>= fun v => val cfg { v with content := some ct } os) ≠ .ub) (hk : Keeps os)
    (o : Owned h0 h.mem extra) :
    EndsP A h0 extra old (text >>= enc >>= fun ct => v >>= fun v => val cfg { v with content := some ct } os)
      (sealed A cfg grow old text enc v os) h := by
  have hu1 : (text >>= enc) ≠ .ub := by intro h'; apply hu; rw [h']; rfl
  unfold sealed
  rcases cipher_ok hA o text enc hu1 with ⟨x, h1, e1, o1, hx⟩ | ⟨ct, c, h1, e1, o1, hx⟩
  · refine (refuseP (h := h1) (x := x) o1 ?_).congr rfl (by simp only [M.bind, e1, Option.bind_some])
    rcases hx with hx | hx
    · left; rw [hx]; rfl
    · exact .inr hx
  · rw [hx] at hu ⊢
    simp only [Res.bind_ok] at hu ⊢
    rcases createInto_ok hA o1 with ⟨q, h2, e2, -, o2, f2, hq⟩ | ⟨e, h2, e2, -, d2, -⟩
    · obtain ⟨h3, e3, o3, -⟩ := freeP (p := some c) o2
      exact .inl ⟨.memory, q, h3, by simp only [M.bind, e1, e2, e3, Option.bind_some, M.pure], o3, .inr ⟨f2, rfl⟩, fun hn => absurd rfl hn⟩
    · refine (fill_ok hA cfg grow ct c v os hu hk d2).congr rfl ?_
      simp only [M.bind, e1, e2, Option.bind_some]

theorem build_ends {A : Alloc} (hA : Fresh A) {h0 : Mem} {extra : List Nat} {old : Option Nat} (cfg : Option Config.Config)
    (grow : Event → List Bytes → Bool) (v : Event) (hc : v.content = none) (os : List Op) (hv : val cfg v os ≠ .ub) (hk : Keeps os) {h : Heap}
    (o : Owned h0 h.mem extra) : EndsP A h0 extra old (val cfg v os) (build A cfg grow true v os) h := by
  unfold build
  rcases createInto_ok hA o with ⟨q, h1, e1, -, o1, f1, hq⟩ | ⟨e, h1, e1, -, d1, -⟩
  · exact .inl ⟨.memory, q, h1, by simp only [M.bind, e1, Option.bind_some, M.pure], o1, .inr ⟨f1, rfl⟩, fun hn => absurd rfl hn⟩
  · refine (EndsP.of_ends (run_ok hA cfg grow true os v e h1 hv hk (by rw [hc]; exact d1))).congr rfl ?_
    simp only [M.bind, e1, Option.bind_some]

theorem signed_keeps (E : Gift.Env) (aux : Option Bytes) (sk : Bytes) : Keeps (signed E aux sk) := by
  intro f hf v w hw
  simp only [signed, List.mem_cons, List.not_mem_nil, or_false, Op.hash.injEq] at hf
  rcases hf with rfl | rfl
  · exact (hash_keeps E.crypto E.build none [] v w).1 hw
  · exact (hash_keeps E.crypto E.build aux sk v w).2 hw

theorem keeps_append {os qs : List Op} (h1 : Keeps os) (h2 : Keeps qs) : Keeps (os ++ qs) := fun f hf => by
  rcases List.mem_append.1 hf with hf | hf
  · exact h1 f hf
  · exact h2 f hf

theorem val_signed (E : Gift.Env) (aux : Option Bytes) (sk : Bytes) (v : Event) :
    val E.cfg v (signed E aux sk) = (computeId E.crypto E.build v >>= fun e => sign E.crypto E.build aux sk e) := by
  simp only [signed, val, opVal, bind_ok_right]

theorem sealHead_val (E : Gift.Env) (aux : Option Bytes) (sk : Bytes) (time : Int) (ct : Bytes) :
    (sealHead E sk time >>= fun v => val E.cfg { v with content := some ct } (signed E aux sk)) = Gift.sealOf E aux sk time ct := by
  unfold sealHead Gift.sealOf
  cases E.crypto.pubOf sk with
  | none => rfl
  | some pk => simp only [Res.bind_ok, val_signed]

theorem pair_val (cfg : Option Config.Config) : ∀ (n : Nat) (ts : List Bytes), ts.length ≤ n → ∀ (v : Event),
    val cfg v (pairOps ts) = Gift.pairTags cfg v ts := by
  intro n
  induction n with
  | zero =>
    intro ts hl v
    cases ts with
    | nil => rfl
    | cons a ts => simp at hl
  | succ n ih =>
    intro ts hl v
    match ts with
    | [] => rfl
    | [_] => rfl
    | a :: b :: ts =>
      simp only [pairOps, val, opVal, Gift.pairTags]
      congr 1
      funext w
      exact ih ts (by simp only [List.length_cons] at hl; omega) w

theorem pair_plain : ∀ (n : Nat) (ts : List Bytes), ts.length ≤ n → (pairOps ts).all Plain = true := by
  intro n
  induction n with
  | zero =>
    intro ts hl
    cases ts with
    | nil => rfl
    | cons a ts => simp at hl
  | succ n ih =>
    intro ts hl
    match ts with
    | [] => rfl
    | [_] => rfl
    | a :: b :: ts =>
      simp only [pairOps, List.all_cons, Plain, Bool.true_and]
      exact ih ts (by simp only [List.length_cons] at hl; omega)

theorem wrap_val (E : Gift.Env) (aux : Option Bytes) (esk epk rpk : Bytes) (time : Int) (extra ct : List _) :
    val E.cfg { zero with kind := 1059, createdAt := time, pubkey := epk, content := some ct }
      (.tag [c!"p", Hex.hexEncode rpk] :: (pairOps extra ++ signed E aux esk)) = Gift.wrapOf E aux esk epk rpk time extra ct := by
  unfold Gift.wrapOf
  simp only [val, opVal, val_append, val_signed, pair_val E.cfg _ extra (Nat.le_refl _)]

theorem wrap_keeps (E : Gift.Env) (aux : Option Bytes) (esk : Bytes) (vs : List Bytes) (extra : List Bytes) :
    Keeps (.tag vs :: (pairOps extra ++ signed E aux esk)) :=
  keeps_append (os := [.tag vs]) (plain_keeps rfl) (keeps_append (plain_keeps (pair_plain _ extra (Nat.le_refl _))) (signed_keeps E aux esk))

theorem seal17_ok {A : Alloc} (hA : Fresh A) {h0 : Mem} {extra : List Nat} {old : Option Nat} (E : Gift.Env)
    (grow : Event → List Bytes → Bool) (D : Gift.Draw) (rumor : Event) (sk rpk : Bytes) {h : Heap}
    (hu : Gift.createSeal E D rumor sk rpk ≠ .ub) (o : Owned h0 h.mem extra) :
    EndsP A h0 extra old (Gift.createSeal E D rumor sk rpk) (seal17 A E grow old D rumor sk rpk) h := by
  have hv : Gift.createSeal E D rumor sk rpk = (toJson E.build rumor >>= (fun t => Nip44.encrypt E.nc E.b64 E.cfg D.nonce sk rpk t) >>= fun ct =>
      (Gift.pastTwoDays D.now D.offset >>= fun time => sealHead E sk time) >>= fun v =>
        val E.cfg { v with content := some ct } (signed E D.aux sk)) := by
    unfold Gift.createSeal
    simp only [Res.bind_assoc, sealHead_val]
  rw [hv] at hu ⊢
  exact sealed_ok hA E.cfg grow _ _ _ _ hu (signed_keeps _ _ _) o

theorem seal59_ok {A : Alloc} (hA : Fresh A) {h0 : Mem} {extra : List Nat} {old : Option Nat} (E : Gift.Env)
    (grow : Event → List Bytes → Bool) (D : Gift.Draw) (rumor : Event) (sk rpk : Bytes) {h : Heap}
    (hu : Gift.createSeal59 E D rumor sk rpk ≠ .ub) (o : Owned h0 h.mem extra) :
    EndsP A h0 extra old (Gift.createSeal59 E D rumor sk rpk) (seal59 A E grow old D rumor sk rpk) h := by
  have hv : Gift.createSeal59 E D rumor sk rpk = (toJson E.build rumor >>= (fun t => Nip44.encrypt E.nc E.b64 E.cfg D.nonce sk rpk t) >>= fun ct =>
      sealHead E sk (Gift.randomize D.now D.offset) >>= fun v => val E.cfg { v with content := some ct } (signed E D.aux sk)) := by
    unfold Gift.createSeal59
    simp only [Res.bind_assoc, sealHead_val]
  rw [hv] at hu ⊢
  exact sealed_ok hA E.cfg grow _ _ _ _ hu (signed_keeps _ _ _) o

theorem wrap17_ok {A : Alloc} (hA : Fresh A) {h0 : Mem} {extra : List Nat} {old : Option Nat} (E : Gift.Env)
    (grow : Event → List Bytes → Bool) (D : Gift.Draw) (eph : Res (Bytes × Bytes)) (sl : Event) (rpk : Bytes) {h : Heap}
    (hu : Gift.createWrap E D eph sl rpk ≠ .ub) (o : Owned h0 h.mem extra) :
    EndsP A h0 extra old (Gift.createWrap E D eph sl rpk) (wrap17 A E grow old D eph sl rpk) h := by
  unfold wrap17
  unfold Gift.createWrap at hu ⊢
  cases eph with
  | ub => exact absurd rfl hu
  | err x => exact refuseP o (.inl rfl)
  | ok k =>
    simp only [Res.bind_ok] at hu ⊢
    have hv : (toJson E.build sl >>= fun text => Nip44.encrypt E.nc E.b64 E.cfg D.nonce k.1 rpk text >>= fun ct =>
        Gift.pastTwoDays D.now D.offset >>= fun time => Gift.wrapOf E D.aux k.1 k.2 rpk time [] ct) =
        (toJson E.build sl >>= (fun t => Nip44.encrypt E.nc E.b64 E.cfg D.nonce k.1 rpk t) >>= fun ct =>
        (Gift.pastTwoDays D.now D.offset >>= fun time => .ok { zero with kind := 1059, createdAt := time, pubkey := k.2 }) >>= fun v =>
          val E.cfg { v with content := some ct } (.tag [c!"p", Hex.hexEncode rpk] :: signed E D.aux k.1)) := by
      simp only [Res.bind_assoc, Res.bind_ok, ← wrap_val, pairOps, List.nil_append]
    rw [hv] at hu ⊢
    exact sealed_ok hA E.cfg grow _ _ _ _ hu (wrap_keeps E D.aux k.1 _ []) o

theorem wrap59_ok {A : Alloc} (hA : Fresh A) {h0 : Mem} {extra : List Nat} {old : Option Nat} (E : Gift.Env)
    (grow : Event → List Bytes → Bool) (D : Gift.Draw) (eph : Res (Bytes × Bytes)) (sl : Event) (rpk : Bytes) (more : List Bytes) {h : Heap}
    (hu : Gift.createWrap59 E D eph sl rpk more ≠ .ub) (o : Owned h0 h.mem extra) :
    EndsP A h0 extra old (Gift.createWrap59 E D eph sl rpk more) (wrap59 A E grow old D eph sl rpk more) h := by
  unfold wrap59
  unfold Gift.createWrap59 at hu ⊢
  cases eph with
  | ub => exact absurd rfl hu
  | err x => exact refuseP o (.inl rfl)
  | ok k =>
    simp only [Res.bind_ok] at hu ⊢
    have hv : (toJson E.build sl >>= fun text => Nip44.encrypt E.nc E.b64 E.cfg D.nonce k.1 rpk text >>= fun ct =>
        Gift.wrapOf E D.aux k.1 k.2 rpk (Gift.randomize D.now D.offset) more ct) =
        (toJson E.build sl >>= (fun t => Nip44.encrypt E.nc E.b64 E.cfg D.nonce k.1 rpk t) >>= fun ct =>
        (Res.ok { zero with kind := 1059, createdAt := Gift.randomize D.now D.offset, pubkey := k.2 }) >>= fun v =>
          val E.cfg { v with content := some ct } (.tag [c!"p", Hex.hexEncode rpk] :: (pairOps more ++ signed E D.aux k.1))) := by
      simp only [Res.bind_assoc, Res.bind_ok, ← wrap_val]
    rw [hv] at hu ⊢
    exact sealed_ok hA E.cfg grow _ _ _ _ hu (wrap_keeps E D.aux k.1 _ more) o

/-- The identifier of a rumor. -/
def rumorHash (E : Gift.Env) : Event → Res Event := fun v => computeId E.crypto E.build v >>= fun e => .ok { e with sig := List.replicate 64 0 }

theorem rumor_keeps (E : Gift.Env) : Keeps [.hash (rumorHash E)] := by
  intro f hf v w hw
  simp only [List.mem_singleton, Op.hash.injEq] at hf
  subst hf
  unfold rumorHash at hw
  obtain ⟨u, h1, h2⟩ := Res.bind_eq_ok.1 hw
  cases h2
  exact (hash_keeps E.crypto E.build none [] v u).1 h1

theorem rumor17_ok {A : Alloc} (hA : Fresh A) {h0 : Mem} {extra : List Nat} {old : Option Nat} (E : Gift.Env)
    (grow : Event → List Bytes → Bool) (now : Int) (kind : Nat) (pk content : Bytes) (createdAt : Int) {h : Heap}
    (hu : Gift.createRumor E now kind pk content createdAt ≠ .ub) (o : Owned h0 h.mem extra) :
    EndsP A h0 extra old (Gift.createRumor E now kind pk content createdAt) (rumor17 A E grow now kind pk content createdAt) h := by
  have hv : Gift.createRumor E now kind pk content createdAt =
      val E.cfg { zero with kind := kind, pubkey := pk, createdAt := if createdAt ≠ 0 then createdAt else now } [.text content, .hash (rumorHash E)] := by
    unfold Gift.createRumor
    simp only [val, opVal, Res.bind_ok, bind_ok_right]
    rfl
  rw [hv] at hu ⊢
  exact build_ends hA E.cfg grow _ rfl _ hu (keeps_append (os := [.text content]) (plain_keeps rfl) (rumor_keeps E)) o

theorem rumor59_ok {A : Alloc} (hA : Fresh A) {h0 : Mem} {extra : List Nat} {old : Option Nat} (E : Gift.Env)
    (grow : Event → List Bytes → Bool) (now : Int) (kind : Nat) (pk : Bytes) (content : Option Bytes) {h : Heap}
    (hu : Gift.createRumor59 E now kind pk content ≠ .ub) (o : Owned h0 h.mem extra) :
    EndsP A h0 extra old (Gift.createRumor59 E now kind pk content) (rumor59 A E grow now kind pk content) h := by
  have hv : Gift.createRumor59 E now kind pk content =
      val E.cfg { zero with kind := kind, pubkey := pk, createdAt := now } (content.toList.map .text ++ [.hash (rumorHash E)]) := by
    unfold Gift.createRumor59
    cases content with
    | none => simp only [Option.toList_none, List.map_nil, List.nil_append, val, opVal, bind_ok_right]; rfl
    | some c => simp only [Option.toList_some, List.map_cons, List.map_nil, List.cons_append, List.nil_append, val, opVal, Res.bind_ok, bind_ok_right]; rfl
  rw [hv] at hu ⊢
  refine build_ends hA E.cfg grow _ rfl _ hu (keeps_append ?_ (rumor_keeps E)) o
  cases content with
  | none => exact plain_keeps rfl
  | some c => exact plain_keeps rfl

theorem addAll_eq (cfg : Option Config.Config) : ∀ (ts : List (List Bytes)) (v : Event), Gift.addAll cfg v ts = val cfg v (ts.map .tag) := by
  intro ts
  induction ts with
  | nil => intro v; rfl
  | cons t ts ih =>
    intro v
    simp only [Gift.addAll, List.map_cons, val, opVal]
    congr 1
    funext w
    exact ih w

theorem sendDm_ok {A : Alloc} (hA : Fresh A) {old : Option Nat} (E : Gift.Env) (grow : Event → List Bytes → Bool) (D1 D2 : Gift.Draw)
    (eph : Res (Bytes × Bytes)) (content sk rpk : Bytes) (subject replyTo : Option Bytes) (createdAt : Int) {h : Heap}
    (hu : Gift.sendDm E D1 D2 eph content sk rpk subject replyTo createdAt ≠ .ub) :
    EndsP A h.mem [] old (Gift.sendDm E D1 D2 eph content sk rpk subject replyTo createdAt)
      (sendDm A E grow old D1 D2 eph content sk rpk subject replyTo createdAt) h := by
  unfold sendDm
  unfold Gift.sendDm Gift.dmRumor at hu ⊢
  cases hk : E.crypto.pubOf sk with
  | none => exact refuseP (Owned.nil h.mem) (.inl rfl)
  | some pk =>
    rw [hk] at hu
    simp only at hu ⊢
    have hv : (Gift.createRumor E D1.now 14 pk content createdAt >>= fun rumor => Gift.addAll E.cfg rumor (Gift.dmTags rpk subject replyTo)) =
        val E.cfg { zero with kind := 14, pubkey := pk, createdAt := if createdAt ≠ 0 then createdAt else D1.now }
          (.text content :: .hash (rumorHash E) :: (Gift.dmTags rpk subject replyTo).map .tag) := by
      unfold Gift.createRumor
      simp only [val, opVal, Res.bind_ok, addAll_eq, rumorHash]
    rw [hv] at hu ⊢
    have hu1 : val E.cfg { zero with kind := 14, pubkey := pk, createdAt := if createdAt ≠ 0 then createdAt else D1.now }
        (.text content :: .hash (rumorHash E) :: (Gift.dmTags rpk subject replyTo).map .tag) ≠ .ub := fun h' => hu (by rw [h']; rfl)
    have hkp : Keeps (.text content :: .hash (rumorHash E) :: (Gift.dmTags rpk subject replyTo).map .tag) :=
      keeps_append (os := [.text content]) (plain_keeps rfl) (keeps_append (os := [.hash (rumorHash E)]) (rumor_keeps E) (plain_keeps (tags_plain _)))
    rcases build_ends (old := old) hA E.cfg grow { zero with kind := 14, pubkey := pk, createdAt := if createdAt ≠ 0 then createdAt else D1.now } rfl _
      hu1 hkp (Owned.nil h.mem) with ⟨x, p, h1, e1, o1, hx, -⟩ | ⟨rumor, er, h1, e1, hr, d1⟩
    · left
      refine ⟨x, old, h1, ?_, o1, ?_, fun _ => .inr rfl⟩
      · unfold rumorHash at e1
        simp only [M.bind, e1, Option.bind_some, M.pure]
      · rcases hx with hx | hx
        · left; rw [hx]; rfl
        · exact .inr hx
    · rw [hr] at hu ⊢
      simp only [Res.bind_ok] at hu ⊢
      have hu2 : Gift.createSeal E D1 rumor sk rpk ≠ .ub := fun h' => hu (by rw [h']; rfl)
      have o1 : Owned h.mem h1.mem (blocks er) := by simpa using d1.own
      unfold rumorHash at e1
      rcases seal17_ok (old := none) hA E grow D1 rumor sk rpk hu2 o1 with ⟨x, p, h2, e2, o2, hx, -⟩ | ⟨sl, es, h2, e2, hs, d2⟩
      · obtain ⟨h3, e3, o3, -⟩ := destroy_owned (e := er) (extra := []) (by simpa using o2)
        left
        refine ⟨x, old, h3, by simp only [M.bind, e1, e2, e3, Option.bind_some, M.pure], o3, ?_, fun _ => .inr rfl⟩
        rcases hx with hx | hx
        · left; rw [hx]; rfl
        · exact .inr hx
      · obtain ⟨h3, e3, d3⟩ := destroy_beside d2
        rw [hs] at hu ⊢
        simp only [Res.bind_ok] at hu ⊢
        have o3 : Owned h.mem h3.mem (blocks es) := by simpa using d3.own
        rcases wrap17_ok (old := old) hA E grow D2 eph sl rpk hu o3 with ⟨x, p, h4, e4, o4, hx, hp⟩ | ⟨w, ew, h4, e4, hw, d4⟩
        · obtain ⟨h5, e5, o5, -⟩ := destroy_owned (e := es) (extra := []) (by simpa using o4)
          exact .inl ⟨x, p, h5, by simp only [M.bind, e1, e2, e3, e4, e5, Option.bind_some, M.pure], o5, hx, hp⟩
        · obtain ⟨h5, e5, d5⟩ := destroy_beside d4
          exact .inr ⟨w, ew, h5, by simp only [M.bind, e1, e2, e3, e4, e5, Option.bind_some, M.pure], hw, d5⟩

/-- As `EndsP`, without saying which of several failures is reported. -/
def EndsW (A : Alloc) (h0 : Mem) (old : Option Nat) (v : Res Event) (m : M Out) (h : Heap) : Prop :=
  (∃ x p h', m h = some (⟨some x, p, none⟩, h') ∧ Owned h0 h'.mem [] ∧ ((∃ y, v = .err y) ∨ (Refused A h0 ∧ x = .memory)) ∧
    (x ≠ .memory → p = none ∨ p = old)) ∨
  ∃ w e' h', m h = some (⟨none, some e'.self, some (w, e')⟩, h') ∧ v = .ok w ∧ Held h0 h'.mem e' w.content []

theorem EndsW.of_endsP {A : Alloc} {h0 : Mem} {old : Option Nat} {v : Res Event} {m m' : M Out} {h h' : Heap}
    (he : EndsP A h0 [] old v m h) (hm : m' h' = m h) : EndsW A h0 old v m' h' := by
  unfold EndsW
  rw [hm]
  rcases he with ⟨x, p, h1, e1, o1, hx, hp⟩ | h2
  · exact .inl ⟨x, p, h1, e1, o1, hx.imp (fun h => ⟨x, h⟩) id, hp⟩
  · exact .inr h2

theorem wrapSeal_ok {A : Alloc} (hA : Fresh A) {h0 : Mem} {old : Option Nat} (E : Gift.Env) (grow : Event → List Bytes → Bool) (D : Gift.Draw)
    (eph : Res (Bytes × Bytes)) (sl : Event) (es : HEv) (rpk : Bytes) {h : Heap} (hu : Gift.createWrap59 E D eph sl rpk [] ≠ .ub)
    (o : Owned h0 h.mem (blocks es)) :
    EndsP A h0 [] old (Gift.createWrap59 E D eph sl rpk []) (wrapSeal A E grow old D eph sl es rpk) h := by
  unfold wrapSeal
  unfold Gift.createWrap59 at hu ⊢
  cases eph with
  | ub => exact absurd rfl hu
  | err x =>
    obtain ⟨h1, e1, o1, -⟩ := destroy_owned (e := es) (extra := []) (by simpa using o)
    refine (refuseP (h := h1) (x := x) o1 (.inl rfl)).congr rfl ?_
    simp only [M.bind, e1, Option.bind_some]
  | ok k =>
    simp only [Res.bind_ok] at hu ⊢
    have hv : (toJson E.build sl >>= fun text => Nip44.encrypt E.nc E.b64 E.cfg D.nonce k.1 rpk text >>= fun ct =>
        Gift.wrapOf E D.aux k.1 k.2 rpk (Gift.randomize D.now D.offset) [] ct) =
        (toJson E.build sl >>= (fun t => Nip44.encrypt E.nc E.b64 E.cfg D.nonce k.1 rpk t) >>= fun ct =>
        (Res.ok { zero with kind := 1059, createdAt := Gift.randomize D.now D.offset, pubkey := k.2 }) >>= fun v =>
          val E.cfg { v with content := some ct } (.tag [c!"p", Hex.hexEncode rpk] :: signed E D.aux k.1)) := by
      simp only [Res.bind_assoc, Res.bind_ok, ← wrap_val, pairOps, List.nil_append]
    rw [hv] at hu ⊢
    have hu1 : (toJson E.build sl >>= fun t => Nip44.encrypt E.nc E.b64 E.cfg D.nonce k.1 rpk t) ≠ .ub := fun h' => hu (by rw [h']; rfl)
    rcases cipher_ok hA o _ _ hu1 with ⟨x, h1, e1, o1, hx⟩ | ⟨ct, c, h1, e1, o1, hx⟩
    · obtain ⟨h2, e2, o2, -⟩ := destroy_owned (e := es) (extra := []) (by simpa using o1)
      refine (refuseP (h := h2) (x := x) o2 ?_).congr rfl (by simp only [M.bind, e1, e2, Option.bind_some])
      rcases hx with hx | hx
      · left; rw [hx]; rfl
      · exact .inr hx
    · rw [hx] at hu ⊢
      rw [Res.bind_ok] at hu ⊢
      obtain ⟨h2, e2, o2, -⟩ := destroy_owned (e := es) (extra := [c]) (o1.perm (List.perm_append_comm (l₁ := [c])))
      rcases createInto_ok hA o2 with ⟨q, h3, e3, -, o3, f3, hq⟩ | ⟨e, h3, e3, -, d3, -⟩
      · obtain ⟨h4, e4, o4, -⟩ := freeP (p := some c) o3
        exact .inl ⟨.memory, q, h4, by simp only [M.bind, e1, e2, e3, e4, Option.bind_some, M.pure], o4, .inr ⟨f3, rfl⟩, fun hn => absurd rfl hn⟩
      · refine (fill_ok hA E.cfg grow ct c _ _ hu (wrap_keeps E D.aux k.1 _ []) d3).congr rfl ?_
        simp only [M.bind, e1, e2, e3, Option.bind_some]

theorem wrapEvent_ok {A : Alloc} (hA : Fresh A) {old : Option Nat} (E : Gift.Env) (grow : Event → List Bytes → Bool) (D1 D2 : Gift.Draw)
    (eph : Res (Bytes × Bytes)) (event : Event) (sk rpk : Bytes) {h : Heap} (hu : Gift.wrapEvent E D1 D2 eph event sk rpk ≠ .ub) :
    EndsW A h.mem old (Gift.wrapEvent E D1 D2 eph event sk rpk) (wrapEvent A E grow old D1 D2 eph event sk rpk) h := by
  have hn : Owned h.mem h.mem [] := Owned.nil h.mem
  have hs : Gift.createSeal59 E D1 event sk rpk = (toJson E.build event >>= (fun t => Nip44.encrypt E.nc E.b64 E.cfg D1.nonce sk rpk t) >>= fun ct =>
      sealHead E sk (Gift.randomize D1.now D1.offset) >>= fun v => val E.cfg { v with content := some ct } (signed E D1.aux sk)) := by
    unfold Gift.createSeal59
    simp only [Res.bind_assoc, sealHead_val]
  unfold wrapEvent
  unfold Gift.wrapEvent at hu ⊢
  rw [hs] at hu ⊢
  cases ht : toJson E.build event with
  | ub => rw [ht] at hu; exact absurd rfl hu
  | err x => exact EndsW.of_endsP (m := refuse old x) (refuseP hn (.inl rfl)) rfl
  | ok t =>
    rw [ht] at hu
    simp only [Res.bind_ok] at hu ⊢
    rcases allocP hA hn (.str t) with ⟨h1, e1, m1, f1⟩ | ⟨j, h1, e1, -, o1, -⟩
    · refine EndsW.of_endsP (m := refuse old .memory) (h := h1) (refuseP (by rw [m1]; exact hn) (.inr ⟨f1, rfl⟩)) ?_
      simp only [M.bind, e1, Option.bind_some]
    · rcases createInto_ok hA o1 with ⟨q, h2, e2, -, o2, f2, hq⟩ | ⟨e, h2, e2, -, d2, -⟩
      · obtain ⟨h3, e3, o3, -⟩ := freeP (p := some j) o2
        refine EndsW.of_endsP (m := refuse old .memory) (h := h3) (refuseP o3 (.inr ⟨f2, rfl⟩)) ?_
        simp only [M.bind, e1, e2, e3, Option.bind_some]
      · have hu1 : Nip44.encrypt E.nc E.b64 E.cfg D1.nonce sk rpk t ≠ .ub := fun h' => hu (by rw [h']; rfl)
        cases hh : sealHead E sk (Gift.randomize D1.now D1.offset) with
        | ub =>
          unfold sealHead at hh
          split at hh <;> cases hh
        | err x =>
          obtain ⟨h3, e3, o3⟩ := destroy_ok d2
          obtain ⟨h4, e4, o4, -⟩ := freeP (p := some j) o3
          left
          refine ⟨x, old, h4, by simp only [M.bind, e1, e2, e3, e4, Option.bind_some, refuse, M.pure], o4, .inl ?_, fun _ => .inr rfl⟩
          cases he : Nip44.encrypt E.nc E.b64 E.cfg D1.nonce sk rpk t with
          | ub => exact absurd he hu1
          | err y => exact ⟨y, rfl⟩
          | ok ct => exact ⟨x, rfl⟩
        | ok v =>
          have hvc : v.content = none := by
            unfold sealHead at hh
            split at hh <;> cases hh
            rfl
          rw [hh] at hu
          simp only [Res.bind_ok] at hu ⊢
          rcases secretStep_ok hA (v := v) (tmp := some j) (extra := []) _ hu1 (by rw [hvc]; exact d2) with
            ⟨x, v', e', h3, c', e3, d3, hx⟩ | ⟨w, e', h3, e3, hw, d3⟩
          · obtain ⟨h4, e4, o4⟩ := destroy_ok d3
            left
            refine ⟨x, old, h4, by simp only [M.bind, e1, e2, e3, e4, Option.bind_some, refuse, M.pure], o4, ?_, fun _ => .inr rfl⟩
            rcases hx with hx | hx
            · left
              cases he : Nip44.encrypt E.nc E.b64 E.cfg D1.nonce sk rpk t with
              | ub => exact absurd he hu1
              | err y => exact ⟨y, rfl⟩
              | ok ct => rw [he] at hx; cases hx
            · exact .inr hx
          · obtain ⟨ct, he, hw⟩ := Res.bind_eq_ok.1 hw
            cases hw
            rw [he] at hu e3 ⊢
            simp only [Res.bind_ok] at hu ⊢
            have hu2 : val E.cfg { v with content := some ct } (signed E D1.aux sk) ≠ .ub := fun h' => hu (by rw [h']; rfl)
            rcases run_ok hA E.cfg grow true (signed E D1.aux sk) { v with content := some ct } e' h3 hu2 (signed_keeps _ _ _) d3 with
              ⟨x, p, h4, e4, o4, hx, -⟩ | ⟨sl, es, h4, e4, hsl, d4⟩
            · left
              refine ⟨x, old, h4, by simp only [M.bind, e1, e2, e3, e4, Option.bind_some, M.pure], o4, ?_, fun _ => .inr rfl⟩
              rcases hx with hx | hx
              · left; rw [hx]; exact ⟨x, rfl⟩
              · exact .inr hx
            · rw [hsl] at hu ⊢
              simp only [Res.bind_ok] at hu ⊢
              refine EndsW.of_endsP (wrapSeal_ok (old := old) hA E grow D2 eph sl es rpk hu (by simpa using d4.own)) ?_
              simp only [M.bind, e1, e2, e3, e4, Option.bind_some]

/-! ### Opening -/

theorem decrypted_ok {A : Alloc} (hA : Fresh A) {h0 : Mem} {extra : List Nat} (E : Gift.Env) (sk pk : Bytes) (content : Option Bytes) {h : Heap}
    (hu : Gift.open_ E sk pk content ≠ .ub) (o : Owned h0 h.mem extra) :
    (∃ x h', decrypted A E sk pk content h = some (.error x, h') ∧ Owned h0 h'.mem extra ∧
      (Gift.open_ E sk pk content = .err x ∨ (Refused A h0 ∧ x = .memory))) ∨
    ∃ m j h', decrypted A E sk pk content h = some (.ok (m, j), h') ∧ Owned h0 h'.mem (j :: extra) ∧
      Gift.open_ E sk pk content = fromJson E.plat E.build E.cfg (Json.cstr m) := by
  unfold decrypted
  unfold Gift.open_ at hu ⊢
  cases content with
  | none => exact .inl ⟨_, h, rfl, o, .inl rfl⟩
  | some t =>
    simp only at hu ⊢
    cases hd : Nip44.decrypt E.nc E.b64 E.cfg sk pk t with
    | ub => rw [hd] at hu; exact absurd rfl hu
    | err x => exact .inl ⟨_, h, rfl, o, .inl rfl⟩
    | ok m =>
      simp only [M.bind, Res.bind_ok]
      rcases allocP hA o (.str m) with ⟨h1, e1, m1, f1⟩ | ⟨j, h1, e1, -, o1, -⟩
      · simp only [M.bind, e1, Option.bind_some, M.pure]
        exact .inl ⟨_, h1, rfl, by rw [m1]; exact o, .inr ⟨f1, rfl⟩⟩
      · simp only [M.bind, e1, Option.bind_some, M.pure]
        exact .inr ⟨m, j, h1, rfl, o1, rfl⟩

theorem parsed_ok {A : Alloc} (hA : Fresh A) {h0 : Mem} {extra : List Nat} (E : Gift.Env)
    (grow : Event → List Bytes → Bool) (m : Bytes) (j : Nat) {h : Heap} (o : Owned h0 h.mem (j :: extra)) :
    (∃ x v h' r, parsed A E grow m j h = some ((some x, v, r), h') ∧ Owned h0 h'.mem extra ∧
      (Event.fromJson E.plat E.build E.cfg (Json.cstr m) = .err x ∨ Refused A h0)) ∨
    ∃ v e h', parsed A E grow m j h = some ((none, v, some e), h') ∧ Event.fromJson E.plat E.build E.cfg (Json.cstr m) = .ok v ∧
      Held h0 h'.mem e v.content extra := by
  unfold parsed
  cases hb : E.build with
  | plain =>
    obtain ⟨h2, e2, o2, -⟩ := freeP (p := some j) o
    simp only [M.bind, e2, Option.bind_some, M.pure]
    exact .inl ⟨_, _, h2, _, rfl, o2, .inl rfl⟩
  | cjson td fr =>
  obtain ⟨r, h1, e1, hr⟩ := C137_held hA E.plat td fr E.cfg grow (Json.cstr m) h
  obtain ⟨r1, r2, r3⟩ := r
  rcases hr with ⟨x, hx, hm, hv⟩ | ⟨e, hn, he, hv, d⟩
  · simp only at hx
    subst hx
    obtain ⟨h2, e2, o2, -⟩ := freeP (h := h1) (p := some j) (by rw [hm]; exact o)
    simp only [M.bind, e1, e2, Option.bind_some, M.pure]
    exact .inl ⟨x, r2, h2, r3, rfl, o2, hv.imp id fun hf => hf.back o.same⟩
  · simp only at hn he
    subst hn; subst he
    have o1 : Owned h0 h1.mem (blocks e ++ (j :: extra)) := Owned.trans o (by simpa using d.own)
    obtain ⟨h2, e2, o2, k2⟩ := freeP (p := some j) (b := blocks e ++ extra) (o1.perm List.perm_middle)
    simp only [M.bind, e1, e2, Option.bind_some, M.pure]
    exact .inr ⟨r2, e, h2, rfl, hv, o2, text_mono d.text fun x hx => k2 x (by simp [blocks, hx])⟩

theorem verified_ok {A : Alloc} (hA : Fresh A) {h0 : Mem} {extra : List Nat} (E : Gift.Env) (v : Event) {h : Heap} {e : HEv} {c : Option Bytes}
    (hu : verify E.crypto E.build v ≠ .ub) (d : Held h0 h.mem e c extra) :
    ∃ r h', verified A E v h = some (r, h') ∧ Held h0 h'.mem e c extra ∧
      ((∃ x, r = some x ∧ (verify E.crypto E.build v = .err x ∨ (Refused A h0 ∧ x = .memory))) ∨ (r = none ∧ verify E.crypto E.build v = .ok ())) := by
  unfold verified
  simp only [M.bind]
  rcases held_alloc hA d blob with ⟨h1, e1, m1, f1⟩ | ⟨t, h1, e1, d1, -⟩
  · simp only [M.bind, e1, Option.bind_some, M.pure]
    exact ⟨_, h1, rfl, by rw [m1]; exact d, .inl ⟨_, rfl, .inr ⟨f1, rfl⟩⟩⟩
  · obtain ⟨h2, e2, d2⟩ := held_free (p := some t) d1
    simp only [M.bind, e1, e2, Option.bind_some]
    cases hv : verify E.crypto E.build v with
    | ub => exact absurd hv hu
    | err x => exact ⟨_, h2, rfl, d2, .inl ⟨x, rfl, .inl rfl⟩⟩
    | ok _ => exact ⟨_, h2, rfl, d2, .inr ⟨rfl, rfl⟩⟩

/-- What is known at the end of opening. -/
def Opens (A : Alloc) (h0 : Mem) (extra : List Nat) (v : Res Event) (m : M (Except Err (Event × HEv))) (h : Heap) : Prop :=
  (∃ x h', m h = some (.error x, h') ∧ Owned h0 h'.mem extra ∧ (v = .err x ∨ Refused A h0)) ∨
  ∃ w e h', m h = some (.ok (w, e), h') ∧ v = .ok w ∧ Held h0 h'.mem e w.content extra

theorem openSeal_ok {A : Alloc} (hA : Fresh A) (E : Gift.Env)
    (grow : Event → List Bytes → Bool) (wrap : Event) (sk : Bytes) {h : Heap} (hu : Gift.openSeal E wrap sk ≠ .ub) :
    Opens A h.mem [] (Gift.openSeal E wrap sk) (openSeal A E grow wrap sk) h := by
  unfold openSeal
  unfold Gift.openSeal at hu ⊢
  by_cases hk : wrap.kind ≠ 1059
  · simp only [if_pos hk]
    exact .inl ⟨_, h, rfl, Owned.nil _, .inl rfl⟩
  · simp only [if_neg hk] at hu ⊢
    have hu1 : Gift.open_ E sk wrap.pubkey wrap.content ≠ .ub := fun h' => hu (by rw [h']; rfl)
    rcases decrypted_ok hA E sk wrap.pubkey wrap.content hu1 (Owned.nil h.mem) with ⟨x, h1, e1, o1, hx⟩ | ⟨m, j, h1, e1, o1, hx⟩
    · left
      refine ⟨x, h1, by simp only [M.bind, e1, Option.bind_some, M.pure], o1, ?_⟩
      rcases hx with hx | hx
      · left; rw [hx]; rfl
      · exact .inr hx.1
    · rcases parsed_ok hA E grow m j o1 with ⟨x, v, h2, r, e2, o2, hv⟩ | ⟨v, e, h2, e2, hv, d2⟩
      · left
        refine ⟨x, h2, by simp only [M.bind, e1, e2, Option.bind_some, M.pure], o2, ?_⟩
        rcases hv with hv | hv
        · left; rw [hx, hv]; rfl
        · exact .inr hv
      · rw [hx, hv] at hu ⊢
        simp only [Res.bind_ok] at hu ⊢
        by_cases hk2 : v.kind ≠ 13
        · simp only [if_pos hk2]
          obtain ⟨h3, e3, o3⟩ := destroy_ok d2
          exact .inl ⟨_, h3, by simp only [M.bind, e1, e2, e3, Option.bind_some, M.pure, if_pos hk2], o3, .inl rfl⟩
        · simp only [if_neg hk2] at hu ⊢
          have hu2 : verify E.crypto E.build v ≠ .ub := fun h' => hu (by rw [h']; rfl)
          obtain ⟨r, h3, e3, d3, hr⟩ := verified_ok hA E v hu2 d2
          rcases hr with ⟨x, rfl, hr⟩ | ⟨rfl, hr⟩
          · obtain ⟨h4, e4, o4⟩ := destroy_ok d3
            left
            refine ⟨x, h4, by simp only [M.bind, e1, e2, e3, e4, Option.bind_some, M.pure, if_neg hk2], o4, ?_⟩
            rcases hr with hr | hr
            · left; rw [hr]; rfl
            · exact .inr hr.1
          · right
            exact ⟨v, e, h3, by simp only [M.bind, e1, e2, e3, Option.bind_some, M.pure, if_neg hk2], by rw [hr]; rfl, d3⟩

theorem unwrapDm_ok {A : Alloc} (hA : Fresh A) (E : Gift.Env)
    (grow : Event → List Bytes → Bool) (wrap : Event) (sk : Bytes) {h : Heap} (hu : (Gift.unwrapDm E wrap sk).result ≠ .ub) :
    Opens A h.mem [] (Gift.unwrapDm E wrap sk).result (unwrapDm A E grow wrap sk) h := by
  have hu0 : Gift.openSeal E wrap sk ≠ .ub := by
    intro h'; apply hu; unfold Gift.unwrapDm; rw [h']
  unfold unwrapDm
  unfold Gift.unwrapDm at hu ⊢
  rcases openSeal_ok hA E grow wrap sk hu0 with ⟨x, h1, e1, o1, hx⟩ | ⟨sl, es, h1, e1, hs, d1⟩
  · left
    refine ⟨x, h1, by simp only [M.bind, e1, Option.bind_some, M.pure], o1, ?_⟩
    rcases hx with hx | hx
    · left; rw [hx]
    · exact .inr hx
  · rw [hs] at hu ⊢
    simp only at hu ⊢
    have o1 : Owned h.mem h1.mem (blocks es) := by simpa using d1.own
    have hu1 : Gift.open_ E sk sl.pubkey sl.content ≠ .ub := fun h' => hu (by rw [h']; rfl)
    rcases decrypted_ok hA E sk sl.pubkey sl.content hu1 o1 with ⟨x, h2, e2, o2, hx⟩ | ⟨m, j, h2, e2, o2, hx⟩
    · obtain ⟨h3, e3, o3, -⟩ := destroy_owned (e := es) (extra := []) (by simpa using o2)
      left
      refine ⟨x, h3, by simp only [M.bind, e1, e2, e3, Option.bind_some, M.pure], o3, ?_⟩
      rcases hx with hx | hx
      · left; rw [hx]; rfl
      · exact .inr hx.1
    · obtain ⟨h3, e3, o3, -⟩ := destroy_owned (e := es) (extra := [j]) (o2.perm (List.perm_append_comm (l₁ := [j])))
      rcases parsed_ok hA E grow m j o3 with ⟨x, v, h4, r, e4, o4, hv⟩ | ⟨v, e, h4, e4, hv, d4⟩
      · left
        refine ⟨x, h4, by simp only [M.bind, e1, e2, e3, e4, Option.bind_some, M.pure], o4, ?_⟩
        rcases hv with hv | hv
        · left; rw [hx, hv]; rfl
        · exact .inr hv
      · rw [hx, hv]
        simp only [Res.bind_ok]
        by_cases hk : v.pubkey ≠ sl.pubkey
        · obtain ⟨h5, e5, o5⟩ := destroy_ok d4
          left
          exact ⟨_, h5, by simp only [M.bind, e1, e2, e3, e4, e5, Option.bind_some, M.pure, if_pos hk], o5, .inl (if_pos hk)⟩
        · right
          exact ⟨v, e, h4, by simp only [M.bind, e1, e2, e3, e4, Option.bind_some, M.pure, if_neg hk], if_neg hk, d4⟩

theorem unwrapEvent_ok {A : Alloc} (hA : Fresh A) (E : Gift.Env)
    (grow : Event → List Bytes → Bool) (wrap : Event) (sk : Bytes) {h : Heap} (hu : (Gift.unwrapEvent E wrap sk).result ≠ .ub) :
    Opens A h.mem [] (Gift.unwrapEvent E wrap sk).result (unwrapEvent A E grow wrap sk) h := by
  have hu0 : Gift.openSeal E wrap sk ≠ .ub := by
    intro h'; apply hu; unfold Gift.unwrapEvent; rw [h']
  unfold unwrapEvent
  unfold Gift.unwrapEvent at hu ⊢
  rcases openSeal_ok hA E grow wrap sk hu0 with ⟨x, h1, e1, o1, hx⟩ | ⟨sl, es, h1, e1, hs, d1⟩
  · left
    refine ⟨x, h1, by simp only [M.bind, e1, Option.bind_some, M.pure], o1, ?_⟩
    rcases hx with hx | hx
    · left; rw [hx]
    · exact .inr hx
  · rw [hs] at hu ⊢
    simp only at hu ⊢
    have o1 : Owned h.mem h1.mem (blocks es) := by simpa using d1.own
    rcases decrypted_ok hA E sk sl.pubkey sl.content hu o1 with ⟨x, h2, e2, o2, hx⟩ | ⟨m, j, h2, e2, o2, hx⟩
    · obtain ⟨h3, e3, o3, -⟩ := destroy_owned (e := es) (extra := []) (by simpa using o2)
      exact .inl ⟨x, h3, by simp only [M.bind, e1, e2, e3, Option.bind_some, M.pure], o3, hx.imp id And.left⟩
    · rcases parsed_ok hA E grow m j o2 with ⟨x, v, h3, r, e3, o3, hv⟩ | ⟨v, e, h3, e3, hv, d3⟩
      · obtain ⟨h4, e4, o4, -⟩ := destroy_owned (e := es) (extra := []) (by simpa using o3)
        exact .inl ⟨x, h4, by simp only [M.bind, e1, e2, e3, e4, Option.bind_some, M.pure], o4, by rw [hx]; exact hv⟩
      · obtain ⟨h4, e4, d4⟩ := destroy_beside d3
        exact .inr ⟨v, e, h4, by simp only [M.bind, e1, e2, e3, e4, Option.bind_some, M.pure], by rw [hx, hv], d4⟩

/-! ## C150 -/

theorem EndsP.call {A : Alloc} {old : Option Nat} {v : Res Event} {m : M Out} {h : Heap} (he : EndsP A h.mem [] old v m h) :
    ∃ o h', m h = some (o, h') ∧ (Delivered h.mem v o h' ∨ Undone A h.mem v o h') := by
  rcases he with ⟨x, p, h', e1, o1, hx, -⟩ | ⟨w, e, h', e1, hw, d⟩
  · exact ⟨_, h', e1, .inr ⟨x, rfl, rfl, hx, o1.eq⟩⟩
  · obtain ⟨h'', e2, o2⟩ := destroy_ok d
    exact ⟨_, h', e1, .inl ⟨w, e, rfl, hw, d.text, h'', e2, o2.eq⟩⟩

/-- **C150.** The inner message of either protocol, for a key of 32 bytes, any kind and any time. -/
theorem C150_rumor {A : Alloc} (hA : Fresh A) (E : Gift.Env) (grow : Event → List Bytes → Bool) {now : Int} (ht : Clock now) {kind : Nat}
    (hk : kind < 65536) {pk : Bytes} (hp : pk.length = 32) (h : Heap) :
    (∀ content createdAt, Clock createdAt →
      ∃ o h', rumor17 A E grow now kind pk content createdAt h = some (o, h') ∧
        (Delivered h.mem (Gift.createRumor E now kind pk content createdAt) o h' ∨
          Undone A h.mem (Gift.createRumor E now kind pk content createdAt) o h')) ∧
    (∀ content, ∃ o h', rumor59 A E grow now kind pk content h = some (o, h') ∧
        (Delivered h.mem (Gift.createRumor59 E now kind pk content) o h' ∨ Undone A h.mem (Gift.createRumor59 E now kind pk content) o h')) :=
  ⟨fun content createdAt hc => (rumor17_ok (old := none) hA E grow now kind pk content createdAt
      (createRumor_defined E hp hk ht hc content) (Owned.nil _)).call,
    fun content => (rumor59_ok (old := none) hA E grow now kind pk content (createRumor59_defined E hp hk ht content) (Owned.nil _)).call⟩

/-- **C150.** The seal of either protocol, of any message. -/
theorem C150_seal {A : Alloc} (hA : Fresh A) (E : Gift.Env) (hc : Nip44.Spec.CfgOK E.cfg) (grow : Event → List Bytes → Bool) (old : Option Nat)
    (D : Gift.Draw) (rumor : Event) (sk rpk : Bytes) (h : Heap) :
    (∃ o h', seal17 A E grow old D rumor sk rpk h = some (o, h') ∧
      (Delivered h.mem (Gift.createSeal E D rumor sk rpk) o h' ∨ Undone A h.mem (Gift.createSeal E D rumor sk rpk) o h')) ∧
    (∃ o h', seal59 A E grow old D rumor sk rpk h = some (o, h') ∧
      (Delivered h.mem (Gift.createSeal59 E D rumor sk rpk) o h' ∨ Undone A h.mem (Gift.createSeal59 E D rumor sk rpk) o h')) :=
  ⟨(seal17_ok (old := old) hA E grow D rumor sk rpk (createSeal_defined hc D rumor sk rpk).1 (Owned.nil _)).call,
    (seal59_ok (old := old) hA E grow D rumor sk rpk (createSeal_defined hc D rumor sk rpk).2 (Owned.nil _)).call⟩

/-- **C150.** The gift wrap of either protocol, of any seal, whether or not a one-time key could be drawn. -/
theorem C150_wrap {A : Alloc} (hA : Fresh A) (E : Gift.Env) (hc : Nip44.Spec.CfgOK E.cfg) (grow : Event → List Bytes → Bool) (old : Option Nat)
    (D : Gift.Draw) {eph : Res (Bytes × Bytes)} (he : eph ≠ .ub) (sl : Event) (rpk : Bytes) (h : Heap) :
    (∃ o h', wrap17 A E grow old D eph sl rpk h = some (o, h') ∧
      (Delivered h.mem (Gift.createWrap E D eph sl rpk) o h' ∨ Undone A h.mem (Gift.createWrap E D eph sl rpk) o h')) ∧
    (∀ extra, ∃ o h', wrap59 A E grow old D eph sl rpk extra h = some (o, h') ∧
      (Delivered h.mem (Gift.createWrap59 E D eph sl rpk extra) o h' ∨ Undone A h.mem (Gift.createWrap59 E D eph sl rpk extra) o h')) :=
  ⟨(wrap17_ok (old := old) hA E grow D eph sl rpk (createWrap_defined hc D he sl rpk []).1 (Owned.nil _)).call,
    fun extra => (wrap59_ok (old := old) hA E grow D eph sl rpk extra (createWrap_defined hc D he sl rpk extra).2 (Owned.nil _)).call⟩

/-- **C150.** Sending a direct message: the gift wrap is delivered and nothing else is left in memory, neither the message nor the
seal; or the call fails and nothing is left at all. -/
theorem C150_send_dm {A : Alloc} (hA : Fresh A) (E : Gift.Env) (hc : Nip44.Spec.CfgOK E.cfg) (hK : Keys32 E.crypto)
    (grow : Event → List Bytes → Bool) (old : Option Nat) (D1 D2 : Gift.Draw) (ht : Clock D1.now)
    {eph : Res (Bytes × Bytes)} (he : eph ≠ .ub) (content sk rpk : Bytes) (subject replyTo : Option Bytes) {createdAt : Int}
    (ht' : Clock createdAt) (h : Heap) :
    ∃ o h', sendDm A E grow old D1 D2 eph content sk rpk subject replyTo createdAt h = some (o, h') ∧
      (Delivered h.mem (Gift.sendDm E D1 D2 eph content sk rpk subject replyTo createdAt) o h' ∨
        Undone A h.mem (Gift.sendDm E D1 D2 eph content sk rpk subject replyTo createdAt) o h') :=
  (sendDm_ok (old := old) hA E grow D1 D2 eph content sk rpk subject replyTo createdAt
    (sendDm_defined hc hK D1 D2 he content sk rpk subject replyTo ht ht')).call

/-- **C150.** Wrapping an event, whatever it is. -/
theorem C150_wrap_event {A : Alloc} (hA : Fresh A) (E : Gift.Env) (hc : Nip44.Spec.CfgOK E.cfg) (grow : Event → List Bytes → Bool) (old : Option Nat)
    (D1 D2 : Gift.Draw) {eph : Res (Bytes × Bytes)} (he : eph ≠ .ub) (event : Event) (sk rpk : Bytes) (h : Heap) :
    ∃ o h', wrapEvent A E grow old D1 D2 eph event sk rpk h = some (o, h') ∧
      (Delivered h.mem (Gift.wrapEvent E D1 D2 eph event sk rpk) o h' ∨ UndoneW A h.mem (Gift.wrapEvent E D1 D2 eph event sk rpk) o h') := by
  rcases wrapEvent_ok (old := old) hA E grow D1 D2 eph event sk rpk (wrapEvent_defined hc D1 D2 he event sk rpk) with
    ⟨x, p, h', e1, o1, hx, -⟩ | ⟨w, e, h', e1, hw, d⟩
  · exact ⟨_, h', e1, .inr ⟨x, rfl, rfl, hx, o1.eq⟩⟩
  · obtain ⟨h'', e2, o2⟩ := destroy_ok d
    exact ⟨_, h', e1, .inl ⟨w, e, rfl, hw, d.text, h'', e2, o2.eq⟩⟩

/-- The surroundings of the examples meet the hypotheses but for the length of keys, which the functions of the examples take from the
caller: here with keys cut or filled to 32 bytes. -/
example : Nip44.Spec.CfgOK Gift.Props.toy.cfg ∧ Clock Gift.Props.draw.now ∧
    Keys32 { Gift.Props.toy.crypto with pubOf := fun sk => some ((sk ++ List.replicate 32 0).take 32) } := by
  refine ⟨?_, ?_, ?_⟩
  · intro c hc; simp [Gift.Props.toy] at hc
  · unfold Clock; decide
  · intro sk pk h
    simp only [Option.some.injEq] at h
    subst h
    simp

/-- A greeting with subject and reply, sent by 1… to 3… under the one-time key 2…, when request number `k` is refused. -/
def greeting (k : Nat) : M Out :=
  sendDm (Filter.Props.failAt k) Gift.Props.toy (fun _ _ => false) none Gift.Props.draw Gift.Props.draw
    (.ok (List.replicate 32 2, List.replicate 32 2)) c!"hi" (List.replicate 32 1) (List.replicate 32 3) (some c!"re") (some (List.replicate 32 9)) 0

/-- All three cases occur: the greeting is sent when memory lasts; it fails when memory for the message, for the seal or for the gift
wrap is refused. -/
example : (seen (greeting 99)).map (fun r => (r.1, r.2.map fun e => e.kind)) = some (none, some 1059) ∧
    (seen (greeting 2)).map (·.1) = some (some .memory) ∧ (seen (greeting 14)).map (·.1) = some (some .memory) ∧
    (seen (greeting 24)).map (·.1) = some (some .memory) := by
  decide +kernel

/-- The value the theorem speaks of is the gift wrap. -/
example : (Gift.sendDm Gift.Props.toy Gift.Props.draw Gift.Props.draw (.ok (List.replicate 32 2, List.replicate 32 2)) c!"hi" (List.replicate 32 1)
    (List.replicate 32 3) (some c!"re") (some (List.replicate 32 9)) 0).isOk = true := by
  decide +kernel

/-! ## C148 for these functions -/

/-- **C148 (part).** When one of these calls fails for another reason than memory, the caller's pointer is NULL or as it was.
Missing: a failure for want of memory (`C148_create_refuted`). -/
theorem C148_mail_partial {A : Alloc} (hA : Fresh A) (E : Gift.Env) (hc : Nip44.Spec.CfgOK E.cfg) (hK : Keys32 E.crypto)
    (grow : Event → List Bytes → Bool) (old : Option Nat) (D1 D2 : Gift.Draw) (ht : Clock D1.now)
    {eph : Res (Bytes × Bytes)} (he : eph ≠ .ub) (sk rpk : Bytes) {h h' : Heap} {o : Out} {x : Err} (hs : o.status = some x) (hx : x ≠ .memory) :
    (∀ content subject replyTo createdAt, Clock createdAt →
      sendDm A E grow old D1 D2 eph content sk rpk subject replyTo createdAt h = some (o, h') → o.ptr = none ∨ o.ptr = old) ∧
    (∀ event, wrapEvent A E grow old D1 D2 eph event sk rpk h = some (o, h') → o.ptr = none ∨ o.ptr = old) ∧
    (∀ rumor, seal17 A E grow old D1 rumor sk rpk h = some (o, h') → o.ptr = none ∨ o.ptr = old) ∧
    (∀ rumor, seal59 A E grow old D1 rumor sk rpk h = some (o, h') → o.ptr = none ∨ o.ptr = old) ∧
    (∀ sl, wrap17 A E grow old D1 eph sl rpk h = some (o, h') → o.ptr = none ∨ o.ptr = old) ∧
    (∀ sl extra, wrap59 A E grow old D1 eph sl rpk extra h = some (o, h') → o.ptr = none ∨ o.ptr = old) := by
  have use : ∀ {m : M Out} {v : Res Event}, EndsP A h.mem [] old v m h → m h = some (o, h') → o.ptr = none ∨ o.ptr = old := by
    intro m v he hm
    rcases he with ⟨y, p, h1, e1, -, -, hp⟩ | ⟨w, e, h1, e1, -, -⟩
    · rw [hm] at e1; cases e1; cases hs; exact hp hx
    · rw [hm] at e1; cases e1; cases hs
  refine ⟨fun content subject replyTo createdAt ht' => use (sendDm_ok hA E grow D1 D2 eph content sk rpk subject replyTo createdAt
      (sendDm_defined hc hK D1 D2 he content sk rpk subject replyTo ht ht')), ?_,
    fun rumor => use (seal17_ok hA E grow D1 rumor sk rpk (createSeal_defined hc D1 rumor sk rpk).1 (Owned.nil _)),
    fun rumor => use (seal59_ok hA E grow D1 rumor sk rpk (createSeal_defined hc D1 rumor sk rpk).2 (Owned.nil _)),
    fun sl => use (wrap17_ok hA E grow D1 eph sl rpk (createWrap_defined hc D1 he sl rpk []).1 (Owned.nil _)),
    fun sl extra => use (wrap59_ok hA E grow D1 eph sl rpk extra (createWrap_defined hc D1 he sl rpk extra).2 (Owned.nil _))⟩
  intro event hm
  rcases wrapEvent_ok (A := A) (old := old) hA E grow D1 D2 eph event sk rpk (h := h) (wrapEvent_defined hc D1 D2 he event sk rpk) with
    ⟨y, p, h1, e1, -, -, hp⟩ | ⟨w, e, h1, e1, -, -⟩
  · rw [hm] at e1; cases e1; cases hs; exact hp hx
  · rw [hm] at e1; cases e1; cases hs

/-- The hypotheses are met: when no one-time key can be made, the message is not sent. -/
example : (seen (sendDm (Filter.Props.failAt 99) Gift.Props.toy (fun _ _ => false) none Gift.Props.draw Gift.Props.draw (.err .invalidKey) c!"hi"
    (List.replicate 32 1) (List.replicate 32 3) none none 0)).map (·.1) = some (some .invalidKey) := by
  decide +kernel

/-! ## C151 -/

theorem Opens.call {A : Alloc} {v : Res Event} {m : M (Except Err (Event × HEv))} {h : Heap} (he : Opens A h.mem [] v m h) :
    ∃ r h', m h = some (r, h') ∧ (Opened h.mem v r h' ∨ Closed A h.mem v r h') := by
  rcases he with ⟨x, h', e1, o1, hx⟩ | ⟨w, e, h', e1, hw, d⟩
  · exact ⟨_, h', e1, .inr ⟨x, rfl, hx, o1.eq⟩⟩
  · obtain ⟨h'', e2, o2⟩ := destroy_ok d
    exact ⟨_, h', e1, .inl ⟨w, e, rfl, hw, d.text, h'', e2, o2.eq⟩⟩

/-- **C151.** Opening a direct message, whatever the gift wrap is and in either build: the message is delivered and nothing else is left
in memory, neither the seal nor a decrypted text; or the call fails and nothing is left at all. -/
theorem C151_unwrap_dm {A : Alloc} (hA : Fresh A) (E : Gift.Env) (grow : Event → List Bytes → Bool) (wrap : Event) (sk : Bytes) (h : Heap) :
    ∃ r h', unwrapDm A E grow wrap sk h = some (r, h') ∧
      (Opened h.mem (Gift.unwrapDm E wrap sk).result r h' ∨ Closed A h.mem (Gift.unwrapDm E wrap sk).result r h') :=
  (unwrapDm_ok hA E grow wrap sk (unwrap_defined E wrap sk).1).call

/-- **C151.** Unwrapping an event. -/
theorem C151_unwrap_event {A : Alloc} (hA : Fresh A) (E : Gift.Env) (grow : Event → List Bytes → Bool) (wrap : Event) (sk : Bytes) (h : Heap) :
    ∃ r h', unwrapEvent A E grow wrap sk h = some (r, h') ∧
      (Opened h.mem (Gift.unwrapEvent E wrap sk).result r h' ∨ Closed A h.mem (Gift.unwrapEvent E wrap sk).result r h') :=
  (unwrapEvent_ok hA E grow wrap sk (unwrap_defined E wrap sk).2).call

/-- The recipient opens the greeting when request number `k` is refused. -/
def reading (k : Nat) : Option (Except Err (Event × HEv)) :=
  match Gift.sendDm Gift.Props.toy Gift.Props.draw Gift.Props.draw (.ok (List.replicate 32 2, List.replicate 32 2)) c!"hi" (List.replicate 32 1)
      (List.replicate 32 3) (some c!"re") none 0 with
  | .ok w => (unwrapDm (Filter.Props.failAt k) Gift.Props.toy (fun _ _ => false) w (List.replicate 32 3) blank).map (·.1)
  | _ => none

/-- The text of the message, or the error. -/
def told : Option (Except Err (Event × HEv)) → Res (Option Bytes)
  | some (.ok (v, _)) => .ok v.content
  | some (.error x) => .err x
  | none => .ub

/-- The greeting is read when memory lasts; when memory for the decrypted text or for the seal is refused, reading fails. -/
example : told (reading 99) = .ok (some c!"hi") ∧ told (reading 0) = .err .memory ∧ told (reading 3) = .err .memory := by
  decide +kernel

end Nostr.Own.Mail.Props
