import Verif.Own.Crypt
import Verif.Own.EvProps
import Verif.Nip44.Props
import Verif.Nip04.Props

/-!
# Property theorem: C173

Encrypting or decrypting a message leaves exactly one new block, which holds the text delivered, or nothing.
-/

namespace Nostr.Own.Crypt.Props
open Nostr Nostr.Heap Nostr.Own Nostr.Own.Crypt

/-! ## Specification -/

/-- The call has delivered the text `v`: the caller's pointer points to it, and its block is all that was added to memory. -/
def Delivered (m : Mem) (v : Res Bytes) (o : Out) (h : Heap) : Prop :=
  ∃ a t, o.status = none ∧ o.ptr = some a ∧ o.text = t ∧ v = .ok t ∧ m a = none ∧ h.mem = upd m a (some (.str t))

/-- The call has failed and left memory as it was: `v` is that failure, or a library refused a step (`lib`), or an allocation failed, which
is reported as one of `codes`. The caller's pointer is unchanged or NULL. -/
def Undone (A : Alloc) (m : Mem) (v : Res Bytes) (lib : Prop) (codes : List Err) (old : Option Nat) (o : Out) (h : Heap) : Prop :=
  ∃ x, o.status = some x ∧ (v = .err x ∨ lib ∨ (Refused A m ∧ x ∈ codes)) ∧ h.mem = m ∧ (o.ptr = old ∨ o.ptr = none)

/-- The call returns, and has delivered or undone everything. -/
def Settled (A : Alloc) (m : Mem) (v : Res Bytes) (lib : Prop) (codes : List Err) (old : Option Nat) (r : Option (Out × Heap)) : Prop :=
  ∃ o h, r = some (o, h) ∧ (Delivered m v o h ∨ Undone A m v lib codes old o h)

/-- The codec as the NIP-44 functions use it. -/
def b64 (B : Nip04.Codec) : Nip44.B64 := ⟨B.enc, B.read⟩

/-! ## Lemmas -/

theorem bind_at {α β} {m : M α} {f : α → M β} {h h' : Heap} {x : α} (e : m h = some (x, h')) : M.bind m f h = f x h' := by
  unfold M.bind; rw [e]; rfl

/-- What the proofs carry to the end. -/
def Fin (A : Alloc) (h0 : Mem) (v : Res Bytes) (lib : Prop) (codes : List Err) (old : Option Nat) (o : Out) (m : Mem) (own : List Nat) : Prop :=
  (∃ a, o.status = none ∧ o.ptr = some a ∧ v = .ok o.text ∧ m a = some (.str o.text) ∧ own = [a]) ∨
  ∃ x, o.status = some x ∧ (v = .err x ∨ lib ∨ (Refused A h0 ∧ x ∈ codes)) ∧ own = [] ∧ (o.ptr = old ∨ o.ptr = none)

theorem Fin.settled {A h0 v lib codes old o} {h : Heap} {own : List Nat} (f : Fin A h0 v lib codes old o h.mem own) (w : Owned h0 h.mem own) :
    Settled A h0 v lib codes old (some (o, h)) := by
  refine ⟨o, h, rfl, ?_⟩
  rcases f with ⟨a, h1, h2, h3, h4, rfl⟩ | ⟨x, h1, h2, rfl, h3⟩
  · left
    refine ⟨a, o.text, h1, h2, rfl, h3, w.fresh a (by simp), funext fun b => ?_⟩
    by_cases hb : b = a
    · subst hb; rw [h4]; simp
    · rw [upd_other _ _ hb, w.same b (by simpa using hb)]
  · exact .inr ⟨x, h1, h2, w.eq, h3⟩

theorem Fin.mono {A h0 v lib codes old o} {m m' : Mem} {own : List Nat} (f : Fin A h0 v lib codes old o m own) (hm : ∀ x ∈ own, m' x = m x) :
    Fin A h0 v lib codes old o m' own := by
  rcases f with ⟨a, h1, h2, h3, h4, rfl⟩ | h
  · exact .inl ⟨a, h1, h2, h3, (hm a (by simp)).trans h4, rfl⟩
  · exact .inr h

/-- Three releases and the end. -/
theorem end3 {A : Alloc} {h0 v lib codes old o} {h : Heap} {p q r : Option Nat} {own : List Nat}
    (w : Owned h0 h.mem (p.toList ++ (q.toList ++ (r.toList ++ own)))) (f : Fin A h0 v lib codes old o h.mem own) :
    Settled A h0 v lib codes old ((M.bind (free p) fun _ => M.bind (free q) fun _ => M.bind (free r) fun _ => M.pure o) h) := by
  obtain ⟨h1, e1, w1, k1⟩ := freeP w
  obtain ⟨h2, e2, w2, k2⟩ := freeP w1
  obtain ⟨h3, e3, w3, k3⟩ := freeP w2
  rw [bind_at e1, bind_at e2, bind_at e3]
  exact (f.mono fun x hx => by rw [k3 x hx, k2 x (by simp [hx]), k1 x (by simp [hx])]).settled w3

theorem end1 {A : Alloc} {h0 v lib codes old o} {h : Heap} {p : Option Nat} {own : List Nat}
    (w : Owned h0 h.mem (p.toList ++ own)) (f : Fin A h0 v lib codes old o h.mem own) :
    Settled A h0 v lib codes old ((M.bind (free p) fun _ => M.pure o) h) := by
  obtain ⟨h1, e1, w1, k1⟩ := freeP w
  rw [bind_at e1]
  exact (f.mono k1).settled w1

theorem end4 {A : Alloc} {h0 v lib codes old o} {h : Heap} {p q r s : Option Nat} {own : List Nat}
    (w : Owned h0 h.mem (p.toList ++ (q.toList ++ (r.toList ++ (s.toList ++ own))))) (f : Fin A h0 v lib codes old o h.mem own) :
    Settled A h0 v lib codes old (end04 p q r s o h) := by
  obtain ⟨h1, e1, w1, k1⟩ := freeP w
  unfold end04
  rw [bind_at e1]
  exact end3 w1 (f.mono fun x hx => k1 x (by simp [hx]))

theorem end5 {A : Alloc} {h0 v lib codes old o} {h : Heap} {p q r s t : Option Nat} {own : List Nat}
    (w : Owned h0 h.mem (p.toList ++ (q.toList ++ (r.toList ++ (s.toList ++ (t.toList ++ own)))))) (f : Fin A h0 v lib codes old o h.mem own) :
    Settled A h0 v lib codes old (end04d p q r s t o h) := by
  obtain ⟨h1, e1, w1, k1⟩ := freeP w
  obtain ⟨h2, e2, w2, k2⟩ := freeP w1
  unfold end04d
  rw [bind_at e1, bind_at e2]
  exact end3 w2 (f.mono fun x hx => by rw [k2 x (by simp [hx]), k1 x (by simp [hx])])

theorem fail_fin {A : Alloc} {h0 v lib codes} {old p : Option Nat} {t : Bytes} {m : Mem} {x : Err} (hp : p = old ∨ p = none)
    (hr : v = .err x ∨ lib ∨ (Refused A h0 ∧ x ∈ codes)) : Fin A h0 v lib codes old ⟨some x, p, t⟩ m [] :=
  .inr ⟨x, rfl, hr, rfl, hp⟩

theorem bios_ok {O : Alloc} (hO : Fresh O) {h0 : Mem} {h : Heap} {own : List Nat} (w : Owned h0 h.mem own) (hn : ¬ Refused O h0) :
    ∃ a b h', bios O h = some ((some a, some b), h') ∧ Owned h0 h'.mem (b :: a :: own) := by
  unfold bios
  rcases allocP hO w blob with ⟨_, _, _, f⟩ | ⟨a, h1, e1, -, w1, -⟩
  · exact absurd f hn
  · rcases allocP hO w1 blob with ⟨_, _, _, f⟩ | ⟨b, h2, e2, -, w2, -⟩
    · exact absurd f hn
    · exact ⟨a, b, h2, by rw [bind_at e1, bind_at e2]; rfl, w2⟩

theorem encode_ok {A O : Alloc} (hA : Fresh A) (hO : Fresh O) (P : Plat) (B : Nip04.Codec) (d : Bytes) {h0 : Mem} {h : Heap} {own : List Nat}
    (w : Owned h0 h.mem own) (hn : P = .mbed ∨ ¬ Refused O h0) :
    ∃ o h', encode A O P B d h = some ((o, B.enc d), h') ∧
      ((o = none ∧ Owned h0 h'.mem own ∧ Refused A h0) ∨
        ∃ a, o = some a ∧ h'.mem a = some (.str (B.enc d)) ∧ Owned h0 h'.mem (a :: own)) := by
  cases P with
  | mbed =>
    unfold encode
    rcases allocP hA w (.str (B.enc d)) with ⟨h1, e1, m1, f⟩ | ⟨a, h1, e1, k, w1, -⟩
    · exact ⟨none, h1, by simp only [bind_at e1]; rfl, .inl ⟨rfl, by rw [m1]; exact w, f⟩⟩
    · exact ⟨some a, h1, by simp only [bind_at e1]; rfl, .inr ⟨a, rfl, k, w1⟩⟩
  | ossl =>
    have hn : ¬ Refused O h0 := by rcases hn with hn | hn; exact absurd hn (by decide); exact hn
    unfold encode
    obtain ⟨a, b, h1, e1, w1⟩ := bios_ok hO w hn
    rcases allocP hO w1 blob with ⟨_, _, _, f⟩ | ⟨g, h2, e2, -, w2, -⟩
    · exact absurd f hn
    simp only [bind_at e1, bind_at e2]
    simp only [reduceCtorEq, ↓reduceIte]
    have fin : ∀ (o : Option Nat) {h3 : Heap}, Owned h0 h3.mem (o.toList ++ (g :: b :: a :: own)) →
        ∃ h4, M.bind (free (some g)) (fun _ => M.bind (free (some a)) fun _ => M.bind (free (some b)) fun _ => M.pure o) h3 = some (o, h4) ∧
          Owned h0 h4.mem (o.toList ++ own) ∧ ∀ x ∈ o.toList, h4.mem x = h3.mem x := by
      intro o h3 w3
      obtain ⟨h4, e4, w4, k4⟩ := freeP (p := some g) (b := a :: b :: (o.toList ++ own))
        (w3.perm (by rw [List.perm_iff_count]; intro x; simp [List.count_cons]; omega))
      obtain ⟨h5, e5, w5, k5⟩ := freeP (p := some a) w4
      obtain ⟨h6, e6, w6, k6⟩ := freeP (p := some b) w5
      refine ⟨h6, by rw [bind_at e4, bind_at e5, bind_at e6]; rfl, w6, fun x hx => ?_⟩
      rw [k6 x (by simp [hx]), k5 x (by simp [hx]), k4 x (by simp [hx])]
    unfold copyOut
    rcases allocP hA w2 (.str (B.enc d)) with ⟨h3, e3, m3, f⟩ | ⟨o, h3, e3, k, w3, -⟩
    · obtain ⟨h4, e4, w4, -⟩ := fin none (h3 := h3) (by rw [m3]; exact w2)
      refine ⟨none, h4, ?_, .inl ⟨rfl, w4, f⟩⟩
      have : M.bind (alloc A (.str (B.enc d))) (fun o => M.bind (free (some g)) fun _ => M.bind (free (some a)) fun _ =>
        M.bind (free (some b)) fun _ => M.pure o) h2 = some (none, h4) := by rw [bind_at e3]; exact e4
      rw [bind_at this]; rfl
    · obtain ⟨h4, e4, w4, k4⟩ := fin (some o) (h3 := h3) w3
      refine ⟨some o, h4, ?_, .inr ⟨o, rfl, by rw [k4 o (by simp)]; exact k, w4⟩⟩
      have : M.bind (alloc A (.str (B.enc d))) (fun o => M.bind (free (some g)) fun _ => M.bind (free (some a)) fun _ =>
        M.bind (free (some b)) fun _ => M.pure o) h2 = some (some o, h4) := by rw [bind_at e3]; exact e4
      rw [bind_at this]; rfl

/-- Decoding with OpenSSL, compared with the values. -/
theorem decode_ossl {A O : Alloc} (hA : Fresh A) (hO : Fresh O) (B : Nip04.Codec) (zero : Bool) (text : Bytes) {h0 : Mem} {h : Heap}
    {own : List Nat} (w : Owned h0 h.mem own) (hn : ¬ Refused O h0) :
    ∃ r h', decode A O .ossl B zero text h = some (r, h') ∧
      ((r = .fail none ∧ Owned h0 h'.mem own ∧ (Refused A h0 ∨ Nip04.decode B zero text = .null)) ∨
        (∃ p, r = .fail (some p) ∧ Owned h0 h'.mem own ∧ Nip04.decode B zero text = .released ∧ B.read text = some []) ∨
        ∃ b p, r = .data b p ∧ Owned h0 h'.mem (p :: own) ∧ b = B.read text ∧
          Nip04.decode B zero text = (match b with | none => .huge | some b => .data b)) := by
  unfold decode
  simp only
  split
  · rename_i hz
    exact ⟨_, h, rfl, .inl ⟨rfl, w, .inr (by simp [Nip04.decode, hz])⟩⟩
  · rename_i hz
    rcases allocP hA w blob with ⟨h1, e1, m1, f⟩ | ⟨p, h1, e1, -, w1, -⟩
    · exact ⟨.fail none, h1, by rw [bind_at e1]; rfl, .inl ⟨rfl, by rw [m1]; exact w, .inl f⟩⟩
    · obtain ⟨a, b, h2, e2, w2⟩ := bios_ok hO w1 hn
      obtain ⟨h3, e3, w3, -⟩ := freeP (p := some a) (b := b :: p :: own) (w2.perm (List.Perm.swap _ _ _))
      obtain ⟨h4, e4, w4, -⟩ := freeP (p := some b) w3
      rw [bind_at e1]
      simp only
      rw [bind_at e2]
      simp only
      rw [bind_at e3, bind_at e4]
      have hd : Nip04.decode B zero text = match B.read text with
          | none => .huge
          | some [] => .released
          | some (c :: s) => .data (c :: s) := by
        rw [Nip04.decode, if_neg hz]
        rcases B.read text with _ | _ | _ <;> rfl
      cases hr : B.read text with
      | none =>
        rw [hr] at hd
        exact ⟨_, h4, rfl, .inr (.inr ⟨none, p, rfl, w4, rfl, hd⟩)⟩
      | some t =>
        rw [hr] at hd
        cases t with
        | nil =>
          obtain ⟨h5, e5, w5, -⟩ := freeP (p := some p) w4
          exact ⟨.fail (some p), h5, by simp only [readOut]; rw [bind_at e5]; rfl, .inr (.inl ⟨p, rfl, w5, hd, rfl⟩)⟩
        | cons c s => exact ⟨_, h4, rfl, .inr (.inr ⟨some (c :: s), p, rfl, w4, rfl, hd⟩)⟩

/-- Decoding for NIP-44. -/
theorem decode_ok {A O : Alloc} (hA : Fresh A) (hO : Fresh O) (P : Plat) (B : Nip04.Codec) (zero : Bool) (text : Bytes) {h0 : Mem} {h : Heap}
    {own : List Nat} (w : Owned h0 h.mem own) (hn : P = .mbed ∨ ¬ Refused O h0) :
    ∃ r h', decode A O P B zero text h = some (r, h') ∧
      (((∃ p, r = .fail p) ∧ Owned h0 h'.mem own ∧ (Refused A h0 ∨ P = .ossl ∧ text = [] ∨ (B.read text).getD [] = [])) ∨
        ∃ b p, r = .data b p ∧ Owned h0 h'.mem (p :: own) ∧ b = B.read text) := by
  cases P with
  | ossl =>
    have hn : ¬ Refused O h0 := by rcases hn with hn | hn; exact absurd hn (by decide); exact hn
    obtain ⟨r, h', e, hr⟩ := decode_ossl hA hO B zero text w hn
    refine ⟨r, h', e, ?_⟩
    rcases hr with ⟨rfl, w', hd⟩ | ⟨p, rfl, w', -, hd⟩ | ⟨b, p, rfl, w', hb, -⟩
    · refine .inl ⟨⟨none, rfl⟩, w', ?_⟩
      rcases hd with hd | hd
      · exact .inl hd
      · refine .inr (.inl ⟨rfl, ?_⟩)
        unfold Nip04.decode at hd
        split at hd
        · rename_i hz; exact List.eq_nil_of_length_eq_zero hz.1
        · split at hd <;> cases hd
    · exact .inl ⟨⟨_, rfl⟩, w', .inr (.inr (by simp [hd]))⟩
    · exact .inr ⟨b, p, rfl, w', hb⟩
  | mbed =>
    unfold decode
    simp only
    split
    · rename_i hz
      exact ⟨_, h, rfl, .inl ⟨⟨none, rfl⟩, w, .inr (.inr (List.eq_nil_of_length_eq_zero hz.1))⟩⟩
    · rcases allocP hA w blob with ⟨h1, e1, m1, f⟩ | ⟨p, h1, e1, -, w1, -⟩
      · exact ⟨.fail none, h1, by rw [bind_at e1]; rfl, .inl ⟨⟨none, rfl⟩, by rw [m1]; exact w, .inl f⟩⟩
      · rw [bind_at e1]
        cases hr : B.read text with
        | none =>
          obtain ⟨h2, e2, w2, -⟩ := freeP (p := some p) w1
          exact ⟨.fail (some p), h2, by simp only; rw [bind_at e2]; rfl, .inl ⟨⟨_, rfl⟩, w2, .inr (.inr (by simp))⟩⟩
        | some b => exact ⟨_, h1, rfl, .inr ⟨some b, p, rfl, w1, rfl⟩⟩

/-! ## NIP-44 -/

theorem pad_safe {cfg : Option Config.Config} (hc : Nip44.Spec.CfgOK cfg) (m : Bytes) : Nip44.pad cfg m ≠ .ub := by
  intro h
  unfold Nip44.pad at h
  split at h
  · cases h
  · rename_i hl
    split at h
    · rename_i hp
      have h1 := Nip44.maxSize_le hc
      have h2 := (Nip44.paddedLen_ge (len := m.length) (by omega)).1
      omega
    · cases h

theorem unpad_safe (cfg : Option Config.Config) (p : Bytes) : Nip44.unpad cfg p ≠ .ub := by
  intro h
  unfold Nip44.unpad at h
  split at h
  · rename_i b0 b1 rest
    simp only at h
    split at h
    · cases h
    split at h
    · cases h
    split at h
    · rename_i h1 h2 h3
      have b0l := b0.toNat_lt
      have b1l := b1.toNat_lt
      have := (Nip44.paddedLen_ge (len := b0.toNat * 256 + b1.toNat) (by omega)).1
      simp only [List.length_cons, ne_eq, Decidable.not_not] at h2
      omega
    · cases h
  · cases h

/-- **C173 (NIP-44 encryption).** With any allocator, and any OpenSSL allocator that does not run out (nothing is asked of mbedTLS),
encryption delivers the encrypted text in one new block, or fails for a reason and leaves memory as it was. -/
theorem C173_nip44_encrypt_partial (A O : Alloc) (hA : Fresh A) (hO : Fresh O) (P : Plat) (N : Nip44.Nc) (B : Nip04.Codec)
    (cfg : Option Config.Config) (f : Faults) (old : Option Nat) (nonce : Option Bytes) (sk pk m : Bytes) (h : Heap)
    (hn : P = .mbed ∨ ¬ Refused O h.mem) (hc : Nip44.Spec.CfgOK cfg) :
    Settled A h.mem (Nip44.encrypt N (b64 B) cfg nonce sk pk m) (f.args ∨ f.mac) [.memory] old
      (encrypt44 A O P N B cfg f old nonce sk pk m h) := by
  generalize hval : Nip44.encrypt N (b64 B) cfg nonce sk pk m = v
  have w := Owned.nil h.mem
  unfold Nip44.encrypt at hval
  unfold encrypt44
  cases nonce with
  | none => exact end3 (p := none) (q := none) (r := none) w (fail_fin (.inl rfl) (.inl hval.symm))
  | some nonce =>
    cases hp : Nip44.pad cfg m with
    | ub => exact absurd hp (pad_safe hc m)
    | err x =>
      have hx : x = .memory := by
        unfold Nip44.pad at hp
        split at hp
        · cases hp; rfl
        · split at hp <;> cases hp
      subst hx
      rw [hp] at hval
      exact end3 (p := none) (q := none) (r := none) w (fail_fin (.inl rfl) (.inl hval.symm))
    | ok padded =>
      rw [hp] at hval
      simp only [Res.bind_ok] at hval
      rcases allocP hA w blob with ⟨h1, e1, m1, fl⟩ | ⟨p, h1, e1, -, w1, -⟩
      · simp only [bind_at e1]
        exact end3 (p := none) (q := none) (r := none) (by rw [m1]; exact w) (fail_fin (.inl rfl) (.inr (.inr ⟨fl, by simp⟩)))
      simp only [bind_at e1]
      rcases allocP hA w1 blob with ⟨h2, e2, m2, fl⟩ | ⟨e, h2, e2, -, w2, -⟩
      · simp only [bind_at e2]
        exact end3 (p := some p) (q := none) (r := none) (by rw [m2]; exact w1) (fail_fin (.inl rfl) (.inr (.inr ⟨fl, by simp⟩)))
      simp only [bind_at e2]
      have w2 : Owned h.mem h2.mem [p, e] := w2.perm (List.Perm.swap _ _ _)
      split
      · rename_i ha
        exact end3 (p := some p) (q := some e) (r := none) w2 (fail_fin (.inl rfl) (.inr (.inl (.inl ha))))
      obtain ⟨h3, e3, w3, -⟩ := freeP (p := some p) w2
      simp only [bind_at e3]
      cases hk : N.conv sk pk with
      | none =>
        rw [hk] at hval
        exact end3 (p := none) (q := some e) (r := none) w3 (fail_fin (.inl rfl) (.inl hval.symm))
      | some ck =>
        rw [hk] at hval
        simp only at hval ⊢
        rcases allocP hA w3 blob with ⟨h4, e4, m4, fl⟩ | ⟨i, h4, e4, -, w4, -⟩
        · simp only [bind_at e4]
          exact end3 (p := none) (q := some e) (r := none) (by rw [m4]; exact w3) (fail_fin (.inl rfl) (.inr (.inr ⟨fl, by simp⟩)))
        simp only [bind_at e4]
        obtain ⟨h5, e5, w5, -⟩ := freeP (p := some i) w4
        simp only [bind_at e5]
        split
        · rename_i hm
          exact end3 (p := none) (q := some e) (r := none) w5 (fail_fin (.inl rfl) (.inr (.inl (.inr hm))))
        rcases allocP hA w5 blob with ⟨h6, e6, m6, fl⟩ | ⟨y, h6, e6, -, w6, -⟩
        · simp only [bind_at e6]
          exact end3 (p := none) (q := some e) (r := none) (by rw [m6]; exact w5) (fail_fin (.inl rfl) (.inr (.inr ⟨fl, by simp⟩)))
        simp only [bind_at e6]
        obtain ⟨h7, e7, w7, -⟩ := freeP (p := some e) (b := [y]) (w6.perm (List.Perm.swap _ _ _))
        simp only [bind_at e7]
        obtain ⟨o, h8, e8, ho⟩ := encode_ok hA hO P B
          (2 :: (nonce ++ N.crypt ck nonce padded ++ N.mac (N.macKey ck nonce) (nonce ++ N.crypt ck nonce padded))) w7 hn
        simp only [bind_at e8]
        rcases ho with ⟨rfl, w8, fl⟩ | ⟨a, rfl, ka, w8⟩
        · exact end3 (p := none) (q := none) (r := some y) w8 (fail_fin (.inr rfl) (.inr (.inr ⟨fl, by simp⟩)))
        · refine end3 (p := none) (q := none) (r := some y) (own := [a]) (w8.perm (List.Perm.swap _ _ _)) (.inl ⟨a, rfl, rfl, ?_, ka, rfl⟩)
          exact hval.symm

/-- **C173 (NIP-44 decryption).** The same; a failing allocation may be reported as a bad message. -/
theorem C173_nip44_decrypt_partial (A O : Alloc) (hA : Fresh A) (hO : Fresh O) (P : Plat) (N : Nip44.Nc) (B : Nip04.Codec)
    (cfg : Option Config.Config) (zero : Bool) (f : Faults) (old : Option Nat) (sk pk text : Bytes) (h : Heap)
    (hB : (B.read []).getD [] = []) (hn : P = .mbed ∨ ¬ Refused O h.mem) :
    Settled A h.mem (Nip44.decrypt N (b64 B) cfg sk pk text) (f.args = true) [.memory, .invalidParam] old
      (decrypt44 A O P N B cfg zero f old sk pk text h) := by
  generalize hval : Nip44.decrypt N (b64 B) cfg sk pk text = v
  have w := Owned.nil h.mem
  unfold Nip44.decrypt at hval
  unfold decrypt44
  split
  · rename_i hc
    rw [if_pos hc] at hval
    exact (fail_fin (A := A) (x := .notSupported) (m := h.mem) (.inl rfl) (.inl hval.symm)).settled w
  rename_i hc
  rw [if_neg hc] at hval
  simp only [b64] at hval
  obtain ⟨r, h1, e1, hr⟩ := decode_ok hA hO P B zero text w hn
  rw [bind_at e1]
  rcases hr with ⟨⟨p, rfl⟩, w1, hr⟩ | ⟨b, y, rfl, w1, hb⟩
  · refine (fail_fin (A := A) (x := .invalidParam) (m := h1.mem) (.inl rfl) ?_).settled w1
    have bad : (B.read text).getD [] = [] → v = .err .invalidParam := by
      intro hd
      cases ht : B.read text with
      | none => rw [ht] at hval; exact hval.symm
      | some b =>
        rw [ht] at hd hval
        simp only [Option.getD_some] at hd
        subst hd
        rw [← hval]; rfl
    rcases hr with hr | ⟨-, rfl⟩ | hr
    · exact .inr (.inr ⟨hr, by simp⟩)
    · exact .inl (bad hB)
    · exact .inl (bad hr)
  · cases b with
    | none =>
      rw [← hb] at hval
      exact end1 (p := some y) w1 (fail_fin (.inl rfl) (.inl hval.symm))
    | some p =>
      rw [← hb] at hval
      simp only at hval ⊢
      unfold Nip44.decryptPayload at hval
      unfold open44
      split
      · rename_i hl
        rw [if_pos hl] at hval
        exact end1 (p := some y) w1 (fail_fin (.inl rfl) (.inl hval.symm))
      rename_i hl
      rw [if_neg hl] at hval
      split
      · rename_i hl
        rw [if_pos hl] at hval
        exact end1 (p := some y) w1 (fail_fin (.inl rfl) (.inl hval.symm))
      rename_i hl
      rw [if_neg hl] at hval
      simp only at hval ⊢
      rcases allocP hA w1 blob with ⟨h2, e2, m2, fl⟩ | ⟨i, h2, e2, -, w2, -⟩
      · simp only [bind_at e2]
        exact end3 (p := some y) (q := none) (r := none) (by rw [m2]; exact w1) (fail_fin (.inl rfl) (.inr (.inr ⟨fl, by simp⟩)))
      simp only [bind_at e2]
      obtain ⟨h3, e3, w3, -⟩ := freeP (p := some i) w2
      simp only [bind_at e3]
      cases hk : N.conv sk pk with
      | none =>
        rw [hk] at hval
        exact end3 (p := some y) (q := none) (r := none) w3 (fail_fin (.inl rfl) (.inl hval.symm))
      | some ck =>
        rw [hk] at hval
        simp only at hval ⊢
        split
        · rename_i hm
          rw [if_pos hm] at hval
          exact end3 (p := some y) (q := none) (r := none) w3 (fail_fin (.inl rfl) (.inl hval.symm))
        rename_i hm
        rw [if_neg hm] at hval
        rcases allocP hA w3 blob with ⟨h4, e4, m4, fl⟩ | ⟨d, h4, e4, -, w4, -⟩
        · simp only [bind_at e4]
          exact end3 (p := some y) (q := none) (r := none) (by rw [m4]; exact w3) (fail_fin (.inl rfl) (.inr (.inr ⟨fl, by simp⟩)))
        simp only [bind_at e4]
        have w4 : Owned h.mem h4.mem [y, d] := w4.perm (List.Perm.swap _ _ _)
        split
        · rename_i ha
          exact end3 (p := some y) (q := some d) (r := none) w4 (fail_fin (.inl rfl) (.inr (.inl ha)))
        cases hu : Nip44.unpad cfg (N.crypt ck (List.take 32 (List.drop 1 p)) (List.take (p.length - 65) (List.drop 33 p))) with
        | ub => exact absurd hu (unpad_safe cfg _)
        | err x =>
          have hx : x = .invalidParam := by
            unfold Nip44.unpad at hu
            split at hu
            · simp only at hu
              split at hu
              · cases hu; rfl
              · split at hu
                · cases hu; rfl
                · split at hu <;> cases hu
            · cases hu; rfl
          subst hx
          rw [hu] at hval
          exact end3 (p := some y) (q := some d) (r := none) w4 (fail_fin (.inl rfl) (.inl hval.symm))
        | ok m =>
          rw [hu] at hval
          simp only
          rcases allocP hA w4 blob with ⟨h5, e5, m5, fl⟩ | ⟨u, h5, e5, -, w5, -⟩
          · simp only [bind_at e5]
            exact end3 (p := some y) (q := some d) (r := none) (by rw [m5]; exact w4) (fail_fin (.inl rfl) (.inr (.inr ⟨fl, by simp⟩)))
          simp only [bind_at e5]
          have w5 : Owned h.mem h5.mem [y, d, u] := w5.perm (by rw [List.perm_iff_count]; intro x; simp [List.count_cons]; omega)
          rcases allocP hA w5 (.str m) with ⟨h6, e6, m6, fl⟩ | ⟨t, h6, e6, kt, w6, -⟩
          · simp only [bind_at e6]
            exact end3 (p := some y) (q := some d) (r := some u) (by rw [m6]; exact w5) (fail_fin (.inr rfl) (.inr (.inr ⟨fl, by simp⟩)))
          · simp only [bind_at e6]
            refine end3 (p := some y) (q := some d) (r := some u) (own := [t])
              (w6.perm (by rw [List.perm_iff_count]; intro x; simp [List.count_cons]; omega)) (.inl ⟨t, rfl, rfl, hval.symm, kt, rfl⟩)

/-! ## NIP-04 -/

/-- **C173 (NIP-04 encryption).** -/
theorem C173_nip04_encrypt_partial (A O : Alloc) (hA : Fresh A) (hO : Fresh O) (C : Nip04.Cipher) (B : Nip04.Codec) (args : Bool)
    (old : Option Nat) (secret iv : Option Bytes) (m : Bytes) (h : Heap) (hn : ¬ Refused O h.mem) (hv : Nip04.encrypt C B secret iv m ≠ .ub) :
    Settled A h.mem (Nip04.encrypt C B secret iv m) (args = true) [.memory] old (encrypt04 A O C B args old secret iv m h) := by
  generalize hval : Nip04.encrypt C B secret iv m = v at hv
  have w := Owned.nil h.mem
  unfold Nip04.encrypt at hval
  unfold encrypt04
  cases secret with
  | none => exact (fail_fin (A := A) (x := .invalidKey) (m := h.mem) (.inl rfl) (.inl hval.symm)).settled w
  | some key =>
  cases iv with
  | none => exact end4 (p := none) (q := none) (r := none) (s := none) w (fail_fin (.inl rfl) (.inl hval.symm))
  | some iv =>
  simp only at hval ⊢
  split
  · rename_i hl
    rw [if_pos hl] at hval
    exact absurd hval.symm hv
  rename_i hl
  rw [if_neg hl] at hval
  rcases allocP hA w blob with ⟨h1, e1, m1, fl⟩ | ⟨x, h1, e1, -, w1, -⟩
  · simp only [bind_at e1]
    exact end4 (p := none) (q := none) (r := none) (s := none) (by rw [m1]; exact w) (fail_fin (.inl rfl) (.inr (.inr ⟨fl, by simp⟩)))
  simp only [bind_at e1]
  rcases allocP hA w1 blob with ⟨h2, e2, m2, fl⟩ | ⟨e, h2, e2, -, w2, -⟩
  · simp only [bind_at e2]
    exact end4 (p := some x) (q := none) (r := none) (s := none) (by rw [m2]; exact w1) (fail_fin (.inl rfl) (.inr (.inr ⟨fl, by simp⟩)))
  simp only [bind_at e2]
  have w2 : Owned h.mem h2.mem [x, e] := w2.perm (List.Perm.swap _ _ _)
  split
  · rename_i ha
    exact end4 (p := some x) (q := some e) (r := none) (s := none) w2 (fail_fin (.inl rfl) (.inr (.inl ha)))
  obtain ⟨o, h3, e3, ho⟩ := encode_ok hA hO .ossl B (Nip04.cbc C key iv (m.take (m.length % 2 ^ 32))) w2 (.inr hn)
  simp only [bind_at e3]
  rcases ho with ⟨rfl, w3, fl⟩ | ⟨c, rfl, -, w3⟩
  · exact end4 (p := some x) (q := some e) (r := none) (s := none) w3 (fail_fin (.inl rfl) (.inr (.inr ⟨fl, by simp⟩)))
  have w3 : Owned h.mem h3.mem [x, e, c] := w3.perm (by rw [List.perm_iff_count]; intro x; simp [List.count_cons]; omega)
  obtain ⟨o, h4, e4, ho⟩ := encode_ok hA hO .ossl B iv w3 (.inr hn)
  simp only [bind_at e4]
  rcases ho with ⟨rfl, w4, fl⟩ | ⟨i, rfl, -, w4⟩
  · exact end4 (p := some x) (q := some e) (r := some c) (s := none) w4 (fail_fin (.inl rfl) (.inr (.inr ⟨fl, by simp⟩)))
  have w4 : Owned h.mem h4.mem [x, e, c, i] := w4.perm (by rw [List.perm_iff_count]; intro x; simp [List.count_cons]; omega)
  rcases allocP hA w4 (.str (B.enc (Nip04.cbc C key iv (m.take (m.length % 2 ^ 32))) ++ c!"?iv=" ++ B.enc iv)) with ⟨h5, e5, m5, fl⟩ | ⟨t, h5, e5, kt, w5, -⟩
  · simp only [bind_at e5]
    exact end4 (p := some x) (q := some e) (r := some c) (s := some i) (by rw [m5]; exact w4)
      (fail_fin (.inr rfl) (.inr (.inr ⟨fl, by simp⟩)))
  · simp only [bind_at e5]
    exact end4 (p := some x) (q := some e) (r := some c) (s := some i) (own := [t])
      (w5.perm (by rw [List.perm_iff_count]; intro x; simp [List.count_cons]; omega)) (.inl ⟨t, rfl, rfl, hval.symm, kt, rfl⟩)

/-- nip44.c:626-672, the value: what follows once the content is decoded. -/
def after04 (C : Nip04.Cipher) (secret : Option Bytes) (c : Option Bytes) : Nip04.Decoded → Res Bytes
  | .released => .ub
  | .null => .err .invalidParam
  | .huge => .err .invalidParam
  | .data iv =>
      if iv.length ≠ 16 then .err .invalidParam
      else match secret with
        | none => .err .invalidKey
        | some key =>
            match c with
            | some c => match Nip04.uncbc C key iv c with
                | none => .err .invalidParam
                | some m => .ok m
            | none => .err .invalidParam

/-- **C173 (NIP-04 decryption).** For every text on which the value function has no undefined behaviour (C128 says which those are). -/
theorem C173_nip04_decrypt_partial (A O : Alloc) (hA : Fresh A) (hO : Fresh O) (C : Nip04.Cipher) (B : Nip04.Codec) (zero args : Bool)
    (old : Option Nat) (secret : Option Bytes) (text : Bytes) (h : Heap) (hn : ¬ Refused O h.mem)
    (hs : ∀ a b, Nip04.cut text = some (a, b) → Nip04.decode B zero a ≠ .released ∧ Nip04.decode B zero b ≠ .released) :
    Settled A h.mem (Nip04.decrypt C B zero secret text) (args = true) [.memory, .invalidParam] old
      (decrypt04 A O C B zero args old secret text h) := by
  generalize hval : Nip04.decrypt C B zero secret text = v
  have w := Owned.nil h.mem
  unfold Nip04.decrypt at hval
  unfold decrypt04
  rcases allocP hA w (.str text) with ⟨h1, e1, m1, fl⟩ | ⟨q, h1, e1, -, w1, -⟩
  · simp only [bind_at e1]
    exact (fail_fin (A := A) (x := .memory) (m := h1.mem) (.inl rfl) (.inr (.inr ⟨fl, by simp⟩))).settled (by rw [m1]; exact w)
  simp only [bind_at e1]
  cases hc : Nip04.cut text with
  | none =>
    rw [hc] at hval
    exact end1 (p := some q) w1 (fail_fin (.inl rfl) (.inl hval.symm))
  | some ab =>
  obtain ⟨a, b⟩ := ab
  obtain ⟨s1, s2⟩ := hs a b hc
  rw [hc] at hval
  simp only at hval ⊢
  obtain ⟨r, h2, e2, hr⟩ := decode_ossl hA hO B zero a w1 hn
  simp only [bind_at e2]
  rcases hr with ⟨rfl, w2, hr⟩ | ⟨p, rfl, w2, hr, -⟩ | ⟨c, y, rfl, w2, -, hd1⟩
  · refine end5 (p := none) (q := some q) (r := none) (s := none) (t := none) w2 (fail_fin (.inl rfl) ?_)
    rcases hr with hr | hr
    · exact .inr (.inr ⟨hr, by simp⟩)
    · rw [hr] at hval; exact .inl hval.symm
  · exact absurd hr s1
  have w2 : Owned h.mem h2.mem [q, y] := w2.perm (List.Perm.swap _ _ _)
  simp only
  obtain ⟨r, h3, e3, hr⟩ := decode_ossl hA hO B zero b w2 hn
  simp only [bind_at e3]
  have hval' : after04 C secret c (Nip04.decode B zero b) = v := by
    rw [← hval, hd1]
    unfold after04
    cases c <;> rfl
  rcases hr with ⟨rfl, w3, hr⟩ | ⟨p, rfl, w3, hr, -⟩ | ⟨ivo, z, rfl, w3, -, hd2⟩
  · refine end5 (p := none) (q := some q) (r := some y) (s := none) (t := none) w3 (fail_fin (.inl rfl) ?_)
    rcases hr with hr | hr
    · exact .inr (.inr ⟨hr, by simp⟩)
    · rw [hr] at hval'; exact .inl hval'.symm
  · exact absurd hr s2
  have w3 : Owned h.mem h3.mem [q, y, z] := w3.perm (by rw [List.perm_iff_count]; intro x; simp [List.count_cons]; omega)
  rw [hd2] at hval'
  cases ivo with
  | none => exact end5 (p := none) (q := some q) (r := some y) (s := some z) (t := none) w3 (fail_fin (.inl rfl) (.inl hval'.symm))
  | some iv =>
  simp only [after04] at hval' ⊢
  split
  · rename_i hl
    rw [if_pos hl] at hval'
    exact end5 (p := none) (q := some q) (r := some y) (s := some z) (t := none) w3 (fail_fin (.inl rfl) (.inl hval'.symm))
  rename_i hl
  rw [if_neg hl] at hval'
  cases secret with
  | none => exact end5 (p := none) (q := some q) (r := some y) (s := some z) (t := none) w3 (fail_fin (.inl rfl) (.inl hval'.symm))
  | some key =>
  simp only at hval' ⊢
  unfold open04
  rcases allocP hA w3 blob with ⟨h4, e4, m4, fl⟩ | ⟨x, h4, e4, -, w4, -⟩
  · simp only [bind_at e4]
    exact end5 (p := none) (q := some q) (r := some y) (s := some z) (t := none) (by rw [m4]; exact w3)
      (fail_fin (.inl rfl) (.inr (.inr ⟨fl, by simp⟩)))
  simp only [bind_at e4]
  rcases allocP hA w4 blob with ⟨h5, e5, m5, fl⟩ | ⟨d, h5, e5, -, w5, -⟩
  · simp only [bind_at e5]
    exact end5 (p := some x) (q := some q) (r := some y) (s := some z) (t := none) (by rw [m5]; exact w4)
      (fail_fin (.inl rfl) (.inr (.inr ⟨fl, by simp⟩)))
  simp only [bind_at e5]
  have w5 : Owned h.mem h5.mem [x, q, y, z, d] := w5.perm (by rw [List.perm_iff_count]; intro x; simp [List.count_cons]; omega)
  cases hm : (if args = true then none else c.bind (Nip04.uncbc C key iv)) with
  | none =>
    refine end5 (p := some x) (q := some q) (r := some y) (s := some z) (t := some d) w5 (fail_fin (.inl rfl) ?_)
    by_cases ha : args = true
    · exact .inr (.inl ha)
    · rw [if_neg ha] at hm
      left
      rw [← hval']
      cases c with
      | none => rfl
      | some c => simp only [Option.bind_some] at hm; simp only [hm]
  | some m =>
    have ha : ¬ args = true := by intro ha; rw [if_pos ha] at hm; cases hm
    rw [if_neg ha] at hm
    have hvm : v = .ok m := by
      rw [← hval']
      cases c with
      | none => cases hm
      | some c => simp only [Option.bind_some] at hm; simp only [hm]
    simp only
    rcases allocP hA w5 (.str m) with ⟨h6, e6, m6, fl⟩ | ⟨t, h6, e6, kt, w6, -⟩
    · simp only [bind_at e6]
      exact end5 (p := some x) (q := some q) (r := some y) (s := some z) (t := some d) (by rw [m6]; exact w5)
        (fail_fin (.inr rfl) (.inr (.inr ⟨fl, by simp⟩)))
    · simp only [bind_at e6]
      exact end5 (p := some x) (q := some q) (r := some y) (s := some z) (t := some d) (own := [t])
        (w6.perm (by rw [List.perm_iff_count]; intro x; simp [List.count_cons]; omega)) (.inl ⟨t, rfl, rfl, hvm, kt, rfl⟩)

/-! ## Where it fails: memory for base64 -/

/-- An empty memory. -/
def blank : Heap := ⟨fun _ => none, 0⟩

/-- What can be observed: status, text delivered, how many of the addresses 100 to 119 are live. -/
def seen (r : Option (Out × Heap)) : Option (Option Err × Bytes × Nat) :=
  r.map fun x => (x.1.status, x.1.text, ((List.range 20).filter fun i => (x.2.mem (100 + i)).isSome).length)

/-- NIP-44 encryption of a greeting by OpenSSL whose `k`-th allocation fails. -/
def greet (k : Nat) : Option (Out × Heap) :=
  encrypt44 (Filter.Props.failAt 99) (Filter.Props.failAt k) .ossl Nip44.Props.toyNc Nip04.Props.std none {} none (some (List.replicate 32 1))
    [1] [4] c!"hello" blank

/-- The payload of that message. -/
def payload : Bytes :=
  2 :: (List.replicate 32 1 ++ (0 :: 5 :: (c!"hello" ++ List.replicate 27 0)) ++ List.replicate 32 9)

/-- A NIP-04 message. -/
def legacy : Bytes := c!"LG14LHl4a3ksPDw7LINrfHZrkyY7NjYmeWt6eSYfB1M=?iv=BwcHBwcHBwcHBwcHBwcHBw=="

/-- The decryption of that message by OpenSSL whose `k`-th allocation fails. -/
def readLegacy (k : Nat) : Option (Out × Heap) :=
  decrypt04 (Filter.Props.failAt 99) (Filter.Props.failAt k) Nip04.Props.toy Nip04.Props.std true false none (some [5]) legacy blank

/-- **C173 (refuted).** Encryption without memory for the memory BIO follows a null pointer. -/
theorem C173_crash_refuted : Fresh (Filter.Props.failAt 5) ∧ greet 5 = none :=
  ⟨Ev.Props.failAt_fresh 5, by
    have : (greet 5).isNone = true := by decide +kernel
    exact Option.isNone_iff_eq_none.1 this⟩

/-- **C173 (refuted).** Without memory for the base64 BIO, encryption reports success and delivers the bytes of the payload unencoded,
which decryption refuses; without memory for the text inside OpenSSL it reports success and delivers the empty text. -/
theorem C173_success_refuted :
    seen (greet 4) = some (none, payload, 1) ∧ seen (greet 6) = some (none, [], 1) ∧
    Nip44.decrypt Nip44.Props.toyNc (b64 Nip04.Props.std) none [1] [4] payload ≠ .ok c!"hello" := by decide +kernel

/-- **C173 (refuted).** Without memory for OpenSSL, decrypting a message that is perfectly in order releases a block twice. -/
theorem C173_double_free_refuted :
    Nip04.decrypt Nip04.Props.toy Nip04.Props.std true (some [5]) legacy = .ok c!"pay 100 sats to bob" ∧ readLegacy 2 = none :=
  ⟨by decide +kernel, by
    have : (readLegacy 2).isNone = true := by decide +kernel
    exact Option.isNone_iff_eq_none.1 this⟩

/-! ## Concrete cases -/

/-- With memory, both calls deliver their text and leave one block. -/
example : seen (greet 99) = some (none, Base64.enc payload, 1) ∧ seen (readLegacy 99) = some (none, c!"pay 100 sats to bob", 1) := by
  decide +kernel

/-- The hypotheses are met: an allocator that does not run out, a codec. -/
example : Fresh generous ∧ ¬ Refused generous blank.mem ∧ (Nip04.Props.std.read []).getD [] = [] ∧ Nip44.Spec.CfgOK none ∧
    (∀ a b, Nip04.cut legacy = some (a, b) → Nip04.decode Nip04.Props.std true a ≠ .released ∧ Nip04.decode Nip04.Props.std true b ≠ .released) := by
  refine ⟨generous_fresh, generous_never (live := []) (fun _ _ => rfl), by decide +kernel, fun c hc => (by cases hc), ?_⟩
  have : Nip04.cut legacy = some (c!"LG14LHl4a3ksPDw7LINrfHZrkyY7NjYmeWt6eSYfB1M=", c!"BwcHBwcHBwcHBwcHBwcHBw==") := by decide +kernel
  rintro a b h
  rw [this] at h
  cases h
  decide +kernel

/-- Failing allocations of the library itself are reported and nothing stays behind. -/
example : seen (encrypt44 (Filter.Props.failAt 3) (Filter.Props.failAt 99) .ossl Nip44.Props.toyNc Nip04.Props.std none {} none
      (some (List.replicate 32 1)) [1] [4] c!"hello" blank) = some (some .memory, [], 0) ∧
    seen (decrypt44 (Filter.Props.failAt 5) (Filter.Props.failAt 99) .ossl Nip44.Props.toyNc Nip04.Props.std none true {} none [1] [4]
      (Base64.enc payload) blank) = some (some .invalidParam, [], 0) ∧
    seen (decrypt44 (Filter.Props.failAt 99) (Filter.Props.failAt 99) .mbed Nip44.Props.toyNc Nip04.Props.std none true {} none [1] [4]
      (Base64.enc payload) blank) = some (none, c!"hello", 1) := by decide +kernel

end Nostr.Own.Crypt.Props
