import Verif.Own.Basic
import Verif.Own.Uri
import Verif.Nip21.Props
import Verif.Filter.HeapProps

/-! # Property theorems: memory of decoded pointers and URIs (C138, C139) -/

namespace Nostr.Own.Uri.Props
open Nostr Nostr.Heap Nostr.Own Nostr.Own.Uri Nostr.Nip21 Nostr.Bech32

/-! ## Specification -/

/-- The relays of a pointer are the strings `l`, in blocks that are new since `h0`. -/
structure Rel (h0 m : Mem) (r : HRel) (l : List Bytes) : Prop where
  ex : ∃ ps : List Nat, r.slots = ps.map some ++ List.replicate (16 - ps.length) none ∧ r.count = ps.length ∧ ps.length ≤ 16 ∧
    Strings m ps l ∧ Owned h0 m ps

/-- What the caller of a decoder finds. `v` is what the text stands for and `relays` its relays. -/
def Outcome {α : Type} (A : Alloc) (h0 : Mem) (v : Res α) (relays : α → List Bytes) (r : Res α × HRel) (h : Heap) : Prop :=
  (∃ x, r = (.err x, empty) ∧ h.mem = h0 ∧ (v = .err x ∨ (Refused A h0 ∧ (x = .memory ∨ x = .encoding)))) ∨
  ∃ w h', v = .ok w ∧ r.1 = .ok w ∧ Rel h0 h.mem r.2 (relays w) ∧ release r.2 h = some (empty, h') ∧ h'.mem = h0

/-- The relays of a URI. -/
def uriRelays : Nip21.Uri → List Bytes
  | .nprofile p => p.relays
  | .nevent e => e.relays
  | .naddr a => a.relays
  | _ => []

/-! ## Lemmas -/

theorem freeSlots_ok {h0 : Mem} : ∀ (ps : List Nat) (rest : List (Option Nat)) {h : Heap}, Owned h0 h.mem ps →
    ∃ h', freeSlots ps.length (ps.map some ++ rest) h = some (List.replicate ps.length none ++ rest, h') ∧ h'.mem = h0
  | [], rest, h, o => ⟨h, rfl, o.eq⟩
  | p :: ps, rest, h, o => by
      obtain ⟨h1, e1, o1, -⟩ := freeP (p := some p) o
      obtain ⟨h2, e2, m2⟩ := freeSlots_ok ps rest o1
      refine ⟨h2, ?_, m2⟩
      simp only [List.length_cons, List.map_cons, List.cons_append, freeSlots, M.bind, e1, e2, Option.bind_some, M.pure,
        List.replicate_succ]

theorem release_ok {h0 : Mem} {h : Heap} {r : HRel} {l} (i : Rel h0 h.mem r l) :
    ∃ h', release r h = some (empty, h') ∧ h'.mem = h0 := by
  obtain ⟨ps, hs, hc, hl, -, o⟩ := i.ex
  obtain ⟨h', e, m⟩ := freeSlots_ok ps (List.replicate (16 - ps.length) none) o
  refine ⟨h', ?_, m⟩
  unfold release
  rw [hs, hc]
  simp only [M.bind, e, Option.bind_some, M.pure, List.replicate_append_replicate]
  unfold empty
  rw [show ps.length + (16 - ps.length) = 16 by omega]

theorem release_empty (h : Heap) : release empty h = some (empty, h) := rfl

theorem Rel.nil (h0 : Mem) : Rel h0 h0 empty [] := ⟨[], rfl, rfl, by simp, .nil, .nil _⟩

theorem Rel.count {h0 m r l} (i : Rel h0 m r l) : r.count = l.length := by
  obtain ⟨ps, -, hc, -, hs, -⟩ := i.ex
  rw [hc, hs.length]

theorem relay_ok {A : Alloc} (hA : Fresh A) {h0 : Mem} {h : Heap} {r : HRel} {a : TlvArgs} {v : Bytes} {st : Tlv}
    (i : Rel h0 h.mem r st.relays)
    (hv : ¬ (a.wantRelays ∧ st.relays.length < a.maxRelays ∧ isValidRelayUrl v = true ∧ 16 ≤ st.relays.length)) :
    (∃ h', relay A a v st r h = some (none, h') ∧ h'.mem = h.mem ∧ Refused A h0) ∨
    ∃ r' h', relay A a v st r h = some (some ((if a.wantRelays ∧ st.relays.length < a.maxRelays ∧ isValidRelayUrl v = true then
        { st with relays := st.relays ++ [v] } else st), r'), h') ∧
      Rel h0 h'.mem r' (if a.wantRelays ∧ st.relays.length < a.maxRelays ∧ isValidRelayUrl v = true then st.relays ++ [v] else st.relays) := by
  unfold relay
  rw [i.count]
  by_cases h1 : a.wantRelays ∧ st.relays.length < a.maxRelays
  · rw [if_pos h1]
    cases h2 : isValidRelayUrl v with
    | false =>
      right
      simp only [if_true]
      refine ⟨r, h, by simp [M.pure], by simpa using i⟩
    | true =>
      have h16 : st.relays.length < 16 := by
        rcases Nat.lt_or_ge st.relays.length 16 with h | h
        · exact h
        · exact absurd ⟨h1.1, h1.2, h2, h⟩ hv
      obtain ⟨ps, hs, hc, hl, hst, o⟩ := i.ex
      have hlen : ps.length = st.relays.length := hst.length
      simp only [Bool.true_eq_false, if_false, M.bind]
      rcases allocP hA o (.str v) with ⟨g, e1, m1, f1⟩ | ⟨b, g, e1, b1, o1, k1⟩
      · left
        simp only [e1, Option.bind_some]
        rw [if_pos (by rw [hs]; simp; omega)]
        exact ⟨g, rfl, m1, f1⟩
      · right
        simp only [e1, Option.bind_some]
        rw [if_pos (by rw [hs]; simp; omega)]
        refine ⟨⟨r.slots.set st.relays.length (some b), st.relays.length + 1⟩, g, by simp [M.pure, h1], ?_⟩
        rw [if_pos ⟨h1.1, h1.2, trivial⟩]
        refine ⟨ps ++ [b], ?_, by simp [hlen], by simp; omega, (hst.mono k1).append (.cons b1 .nil), ?_⟩
        · simp only [hs]
          have : List.replicate (16 - ps.length) (none : Option Nat) = none :: List.replicate (15 - ps.length) none := by
            rw [← List.replicate_succ]; congr 1; omega
          rw [this]
          have hp := Filter.Own.set_pre (ps.map some) (some b) none (List.replicate (15 - ps.length) none)
          rw [List.length_map, hlen] at hp
          rw [← hlen] at hp ⊢
          rw [hp]
          simp
        · exact o1.perm (List.perm_append_singleton b ps).symm
  · rw [if_neg h1]
    right
    have h2 : ¬ (a.wantRelays ∧ st.relays.length < a.maxRelays ∧ isValidRelayUrl v = true) := fun h => h1 ⟨h.1, h.2.1⟩
    rw [if_neg h2, if_neg h2]
    exact ⟨r, h, rfl, i⟩

/-- What reading the records comes to. -/
def Read (A : Alloc) (h0 : Mem) (v : Res Tlv) (r : Option Err × Tlv × HRel) (h : Heap) : Prop :=
  (r.1 = some .encoding ∧ r.2.2 = empty ∧ h.mem = h0 ∧ (v = .err .encoding ∨ Refused A h0)) ∨
  (r.1 = none ∧ v = .ok r.2.1 ∧ Rel h0 h.mem r.2.2 r.2.1.relays)

theorem parseLoop_ok {A : Alloc} (hA : Fresh A) {h0 : Mem} (a : TlvArgs) (data : Bytes) :
    ∀ (fuel pos : Nat) (st : Tlv) (r : HRel) (h : Heap), Rel h0 h.mem r st.relays →
      Nip21.parseLoop a data fuel pos st ≠ .ub →
      ∃ o h', parseLoop A a data fuel pos st r h = some (o, h') ∧ Read A h0 (Nip21.parseLoop a data fuel pos st) o h'
  | 0, pos, st, r, h, i, hu => absurd rfl hu
  | fuel + 1, pos, st, r, h, i, hu => by
      have stop : ∀ {v : Res Tlv} {g : Heap}, Rel h0 g.mem r st.relays → (v = .err .encoding ∨ Refused A h0) →
          ∃ o h', (M.bind (release r) fun r => M.pure (some Err.encoding, st, r)) g = some (o, h') ∧ Read A h0 v o h' := by
        intro v g ig hv
        obtain ⟨g', e, m⟩ := release_ok ig
        exact ⟨(some .encoding, st, empty), g', by simp only [M.bind, e, Option.bind_some, M.pure], .inl ⟨rfl, rfl, m, hv⟩⟩
      unfold Nip21.parseLoop at hu ⊢
      unfold parseLoop
      by_cases hp : pos + 2 ≤ data.length
      · rw [if_pos hp] at hu ⊢
        rw [if_pos hp]
        cases ht : rd data pos with
        | ub => rw [ht] at hu; exact absurd rfl hu
        | err x => unfold rd at ht; split at ht <;> cases ht
        | ok type =>
          cases hn : rd data (pos + 1) with
          | ub => rw [ht, hn] at hu; exact absurd rfl hu
          | err x => unfold rd at hn; split at hn <;> cases hn
          | ok lenB =>
            rw [ht, hn] at hu
            simp only [Res.bind_ok] at hu ⊢
            by_cases hb : pos + 2 + lenB.toNat > data.length
            · rw [if_pos hb, if_pos hb]
              exact stop i (.inl rfl)
            · rw [if_neg hb] at hu ⊢
              rw [if_neg hb]
              by_cases h1 : type = 1
              · subst h1
                rw [if_pos rfl]
                have hsl : slice data (pos + 2) lenB.toNat = .ok ((data.drop (pos + 2)).take lenB.toNat) := by
                  unfold slice; rw [if_neg hb]
                generalize (data.drop (pos + 2)).take lenB.toNat = v at hsl ⊢
                have hrec : record a data 1 (pos + 2) lenB.toNat st =
                    if a.wantRelays ∧ st.relays.length < a.maxRelays ∧ isValidRelayUrl v = true then
                      (if 16 ≤ st.relays.length then .ub else .ok { st with relays := st.relays ++ [v] })
                    else .ok st := by
                  unfold record
                  rw [if_neg (by decide), if_pos rfl, hsl]
                  by_cases hw : a.wantRelays ∧ st.relays.length < a.maxRelays
                  · rw [if_pos hw]
                    cases hv : isValidRelayUrl v <;> simp [hw, hv]
                  · rw [if_neg hw, if_neg (fun h => hw ⟨h.1, h.2.1⟩)]
                rw [hrec] at hu ⊢
                have hnot : ¬ (a.wantRelays ∧ st.relays.length < a.maxRelays ∧ isValidRelayUrl v = true ∧ 16 ≤ st.relays.length) := by
                  rintro ⟨x1, x2, x3, x4⟩
                  rw [if_pos ⟨x1, x2, x3⟩, if_pos x4] at hu
                  exact hu rfl
                rcases relay_ok hA i hnot with ⟨g, e1, m1, f1⟩ | ⟨r', g, e1, i1⟩
                · simp only [M.bind, e1, Option.bind_some]
                  exact stop (by rw [m1]; exact i) (.inr f1)
                · simp only [M.bind, e1, Option.bind_some]
                  by_cases hw : a.wantRelays ∧ st.relays.length < a.maxRelays ∧ isValidRelayUrl v = true
                  · have h16 : ¬ 16 ≤ st.relays.length := fun h => hnot ⟨hw.1, hw.2.1, hw.2.2, h⟩
                    simp only [if_pos hw, if_neg h16, Res.bind_ok] at hu i1 ⊢
                    exact parseLoop_ok hA a data fuel _ _ r' g i1 hu
                  · simp only [if_neg hw, Res.bind_ok] at hu i1 ⊢
                    exact parseLoop_ok hA a data fuel _ _ r' g i1 hu
              · rw [if_neg h1]
                have keep : ∀ st', record a data type (pos + 2) lenB.toNat st = .ok st' → st'.relays = st.relays := by
                  intro st' hr
                  unfold record at hr
                  rw [if_neg h1] at hr
                  by_cases h0 : type = 0
                  · rw [if_pos h0] at hr
                    split at hr
                    · cases hr
                    · unfold slice at hr
                      rw [if_neg hb] at hr
                      simp only [Res.bind_ok, Res.ok.injEq] at hr
                      rw [← hr]
                  · rw [if_neg h0] at hr
                    by_cases h2 : type = 2
                    · rw [if_pos h2] at hr
                      split at hr
                      · rename_i hl
                        unfold slice at hr
                        rw [if_neg (by omega)] at hr
                        simp only [Res.bind_ok, Res.ok.injEq] at hr
                        rw [← hr]
                      · cases hr; rfl
                    · rw [if_neg h2] at hr
                      split at hr
                      · split at hr
                        · simp only [Res.bind_eq_ok, Res.ok.injEq] at hr
                          obtain ⟨_, _, _, _, _, _, _, _, hr⟩ := hr
                          rw [← hr]
                        · cases hr; rfl
                      · cases hr; rfl
                cases hr : record a data type (pos + 2) lenB.toNat st with
                | ub => rw [hr] at hu; exact absurd rfl hu
                | err x =>
                  have hx : x = .encoding := by
                    unfold record at hr
                    rw [if_neg h1] at hr
                    split at hr
                    · split at hr
                      · cases hr; rfl
                      · unfold slice at hr
                        rw [if_neg hb] at hr
                        simp at hr
                    · split at hr
                      · split at hr
                        · rename_i hl
                          unfold slice at hr
                          rw [if_neg (by omega)] at hr
                          simp at hr
                        · cases hr
                      · split at hr
                        · split at hr
                          · exfalso
                            unfold rd at hr
                            repeat' split at hr
                            all_goals simp at hr
                          · cases hr
                        · cases hr
                  subst hx
                  exact stop i (.inl rfl)
                | ok st' =>
                  rw [hr] at hu
                  simp only [Res.bind_ok] at hu ⊢
                  exact parseLoop_ok hA a data fuel _ st' r h (by rw [keep st' hr]; exact i) hu
      · rw [if_neg hp, if_neg hp]
        exact ⟨_, h, rfl, .inr ⟨rfl, rfl, i⟩⟩

theorem decodeBytes_ok {A : Alloc} (hA : Fresh A) (s hrp : Bytes) (n : Nat) (h : Heap) :
    ∃ v h', decodeBytes A s hrp n h = some (v, h') ∧ h'.mem = h.mem ∧
      (v = Nip21.decodeBytes s hrp n ∨ (Refused A h.mem ∧ (v = .err .memory ∨ v = .err .encoding))) := by
  unfold decodeBytes
  by_cases h1 : s.length < hrp.length + 8 ∨ s.length > hrp.length + 1 + ((n * 8 + 4) / 5 + 6)
  · rw [if_pos h1]
    exact ⟨_, h, rfl, rfl, .inl (by unfold Nip21.decodeBytes; simp only; rw [if_pos h1])⟩
  · rw [if_neg h1]
    by_cases h2 : s.take hrp.length ≠ hrp ∨ s[hrp.length]? ≠ some 0x31
    · rw [if_pos h2]
      exact ⟨_, h, rfl, rfl, .inl (by unfold Nip21.decodeBytes; simp only; rw [if_neg h1, if_pos h2])⟩
    · rw [if_neg h2]
      simp only [M.bind]
      rcases allocP hA (Owned.nil h.mem) (.str s) with ⟨g, e1, m1, f1⟩ | ⟨d, g, e1, -, o1, -⟩
      · exact ⟨.err .memory, g, by simp only [e1, Option.bind_some, M.pure], m1, .inr ⟨f1, .inl rfl⟩⟩
      · obtain ⟨g1, e2, o2, -⟩ := freeP (p := some d) (b := []) o1
        have other : ∃ v h', (M.bind (free (some d)) fun _ => M.pure (Nip21.decodeBytes s hrp n)) g = some (v, h') ∧ h'.mem = h.mem ∧
            (v = Nip21.decodeBytes s hrp n ∨ (Refused A h.mem ∧ (v = .err .memory ∨ v = .err .encoding))) :=
          ⟨_, g1, by simp only [M.bind, e2, Option.bind_some, M.pure], o2.eq, .inl rfl⟩
        simp only [e1, Option.bind_some]
        cases readChars (s.drop (hrp.length + 1)) with
        | ub => exact other
        | err x => exact other
        | ok _ =>
          simp only [M.bind]
          rcases allocP hA o1 (.str s) with ⟨g2, e3, m3, f3⟩ | ⟨t, g2, e3, -, o3, -⟩
          · obtain ⟨g4, e4, o4, -⟩ := freeP (p := some d) (b := []) (h := g2) (by rw [m3]; exact o1)
            exact ⟨.err .encoding, g4, by simp only [M.bind, e3, e4, Option.bind_some, M.pure], o4.eq, .inr ⟨f3, .inr rfl⟩⟩
          · obtain ⟨g4, e4, o4, -⟩ := freeP (p := some t) (b := [d]) o3
            obtain ⟨g5, e5, o5, -⟩ := freeP (p := some d) (b := []) o4
            exact ⟨_, g5, by simp only [M.bind, e3, e4, e5, Option.bind_some, M.pure], o5.eq, .inl rfl⟩

theorem decodeBytes_no_ub (s hrp : Bytes) (n : Nat) : Nip21.decodeBytes s hrp n ≠ .ub := by
  have hr : ∀ l, readChars l ≠ .ub := by
    intro l
    induction l with
    | nil => simp [readChars]
    | cons c cs ih =>
      unfold readChars
      split
      · simp
      · cases hx : readChars cs with
        | ub => exact absurd hx ih
        | err e => simp
        | ok v => simp
  unfold Nip21.decodeBytes
  simp only
  split
  · simp
  · split
    · simp
    · cases hx : readChars (s.drop (hrp.length + 1)) with
      | ub => exact absurd hx (hr _)
      | err e => simp
      | ok v =>
        simp only [Res.bind_ok]
        repeat' split
        all_goals simp

theorem decode_ok {α : Type} {A : Alloc} (hA : Fresh A) (hrp : Bytes) (a : TlvArgs) (ha : a.maxRelays ≤ 16) (fin : Tlv → Res α)
    (relays : α → List Bytes) (hub : ∀ t, fin t ≠ .ub) (hrel : ∀ t v, fin t = .ok v → relays v = t.relays)
    (s : Bytes) (h : Heap) :
    ∃ r h', decode A hrp a fin s h = some (r, h') ∧
      Outcome A h.mem (Nip21.decodeBytes s hrp 4096 >>= fun d => parseTlv a d >>= fin) relays r h' := by
  unfold decode
  simp only [M.bind]
  obtain ⟨v, g, e1, m1, hv⟩ := decodeBytes_ok hA s hrp 4096 h
  simp only [e1, Option.bind_some]
  rcases hv with rfl | ⟨f1, hv⟩
  · cases hd : Nip21.decodeBytes s hrp 4096 with
    | ub => exact absurd hd (decodeBytes_no_ub _ _ _)
    | err x => exact ⟨_, g, rfl, .inl ⟨x, rfl, m1, .inl rfl⟩⟩
    | ok data =>
      simp only [M.bind, Res.bind_ok]
      have hnu : Nip21.parseLoop a data (data.length + 1) 0 {} ≠ .ub := by
        have := Nip21.Props.C07_parse_total a ha data
        unfold parseTlv at this
        rcases this with h | ⟨t, h, -⟩ <;> rw [h] <;> simp
      obtain ⟨o, g2, e2, ro⟩ := parseLoop_ok hA (h0 := h.mem) a data (data.length + 1) 0 {} empty g (by rw [m1]; exact Rel.nil _) hnu
      simp only [e2, Option.bind_some]
      unfold parseTlv
      rcases ro with ⟨h1, h2, h3, h4⟩ | ⟨h1, h2, h3⟩
      · rw [h1, h2]
        refine ⟨(.err .encoding, empty), g2, by simp only [M.bind, release_empty, Option.bind_some, M.pure], .inl ⟨_, rfl, h3, ?_⟩⟩
        rcases h4 with h4 | h4
        · left; rw [h4]; rfl
        · exact .inr ⟨h4, .inr rfl⟩
      · rw [h1, h2]
        simp only [Res.bind_ok]
        obtain ⟨g3, e3, m3⟩ := release_ok h3
        cases hf : fin o.2.1 with
        | ub => exact absurd hf (hub _)
        | err x =>
          exact ⟨(.err x, empty), g3, by simp only [M.bind, e3, Option.bind_some, M.pure], .inl ⟨x, rfl, m3, .inl rfl⟩⟩
        | ok w =>
          exact ⟨(.ok w, o.2.2), g2, rfl, .inr ⟨w, g3, rfl, rfl, by rw [hrel _ _ hf]; exact h3, e3, m3⟩⟩
  · rcases hv with rfl | rfl
    · exact ⟨_, g, rfl, .inl ⟨_, rfl, m1, .inr ⟨f1, .inl rfl⟩⟩⟩
    · exact ⟨_, g, rfl, .inl ⟨_, rfl, m1, .inr ⟨f1, .inr rfl⟩⟩⟩

/-! ## C138 -/

/-- **C138.** Decoding an `nprofile`, whatever the text and whatever the allocator refuses: memory that is not owned is never
touched; a failure leaves no memory behind and no relays; a success gives what the text stands for, and releasing it brings
memory back as it was. -/
theorem C138_nprofile {A : Alloc} (hA : Fresh A) (s : Bytes) (h : Heap) :
    ∃ r h', nprofileDecode A s h = some (r, h') ∧ Outcome A h.mem (Nip21.nprofileDecode s) NProfile.relays r h' := by
  refine decode_ok hA _ _ (by simp [maxRelays]) finProfile _ ?_ ?_ s h
  · intro t; unfold finProfile; split <;> simp
  · intro t v hv
    unfold finProfile at hv
    split at hv
    · cases hv
    · cases hv; rfl

/-- C138 for `nevent`. -/
theorem C138_nevent {A : Alloc} (hA : Fresh A) (s : Bytes) (h : Heap) :
    ∃ r h', neventDecode A s h = some (r, h') ∧ Outcome A h.mem (Nip21.neventDecode s) NEvent.relays r h' := by
  refine decode_ok hA _ _ (by simp [maxRelays]) finEvent _ ?_ ?_ s h
  · intro t; unfold finEvent; split <;> simp
  · intro t v hv
    unfold finEvent at hv
    split at hv
    · cases hv
    · cases hv; rfl

/-- C138 for `naddr`. -/
theorem C138_naddr {A : Alloc} (hA : Fresh A) (s : Bytes) (h : Heap) :
    ∃ r h', naddrDecode A s h = some (r, h') ∧ Outcome A h.mem (Nip21.naddrDecode s) NAddr.relays r h' := by
  refine decode_ok hA _ _ (by simp [maxRelays]) finAddr _ ?_ ?_ s h
  · intro t; unfold finAddr; repeat' split
    all_goals simp
  · intro t v hv
    unfold finAddr at hv
    repeat' split at hv
    all_goals cases hv
    rfl

theorem map_ok {α β : Type} {A : Alloc} {h0 : Mem} {v : Res α} {f : α → β} {g : α → List Bytes} {k : β → List Bytes}
    (hk : ∀ x, k (f x) = g x) {r : Res α × HRel} {h : Heap} (o : Outcome A h0 v g r h) : Outcome A h0 (f <$> v) k (f <$> r.1, r.2) h := by
  rcases o with ⟨x, rfl, m, hv⟩ | ⟨w, h', rfl, h1, h2, h3⟩
  · refine .inl ⟨x, rfl, m, ?_⟩
    rcases hv with hv | hv
    · left; rw [hv]; rfl
    · exact .inr hv
  · refine .inr ⟨f w, h', rfl, by rw [h1]; rfl, ?_, h3⟩
    rw [hk]; exact h2

/-! ## C189 keys as texts -/

/-- The result is `v`, or an encoding error for lack of memory; memory is as before. -/
def Done (A : Alloc) (h : Heap) (v : Res Bytes) (m : M (Res Bytes)) : Prop :=
  ∃ r h', m h = some (r, h') ∧ h'.mem = h.mem ∧ (r = v ∨ (r = .err .encoding ∧ Refused A h.mem))

theorem done_pure (A : Alloc) (h : Heap) (v : Res Bytes) : Done A h v (M.pure v) := ⟨v, h, rfl, rfl, .inl rfl⟩

theorem done_copy {A : Alloc} (hA : Fresh A) (h : Heap) (v : Res Bytes) : Done A h v (withCopy A v) := by
  rcases allocP hA (Owned.nil h.mem) (.str []) with ⟨h1, e1, m1, rf⟩ | ⟨c, h1, e1, -, o1, -⟩
  · exact ⟨_, h1, by simp only [withCopy, M.bind, e1, Option.bind_some]; rfl, m1, .inr ⟨rfl, rf⟩⟩
  · obtain ⟨h2, e2, -, o2⟩ := Owned.free o1
    exact ⟨v, h2, by simp only [withCopy, M.bind, e1, e2, Option.bind_some]; rfl, o2.eq, .inl rfl⟩

/-- **C189** (public keys, reading). -/
theorem C189_key_from {A : Alloc} (hA : Fresh A) (s : Bytes) (h : Heap) : Done A h (Bech32.keyFromBech32 s) (keyFrom A s) := by
  unfold keyFrom
  split
  · rename_i h1
    have : Bech32.keyFromBech32 s = .err .encoding := by simp only [Bech32.keyFromBech32]; rw [if_pos h1]
    rw [this]; exact done_pure _ _ _
  · rename_i h1
    split
    · rename_i h2
      have : Bech32.keyFromBech32 s = .err .encoding := by simp only [Bech32.keyFromBech32]; rw [if_neg h1, h2]
      rw [this]; exact done_pure _ _ _
    · rename_i sep h2
      split
      · rename_i h3
        have : Bech32.keyFromBech32 s = .err .encoding := by simp only [Bech32.keyFromBech32]; rw [if_neg h1, h2]; simp only; rw [if_pos h3]
        rw [this]; exact done_pure _ _ _
      · rename_i h3
        split
        · rename_i h4
          have : Bech32.keyFromBech32 s = .err .encoding := by
            simp only [Bech32.keyFromBech32]; rw [if_neg h1, h2]; simp only; rw [if_neg h3, if_pos h4]
          rw [this]; exact done_pure _ _ _
        · split
          · exact done_copy hA _ _
          · exact done_pure _ _ _

/-- **C189** (secret keys with `nsec`, event ids with `note`, reading). -/
theorem C189_fixed_from {A : Alloc} (hA : Fresh A) (junk pre s : Bytes) (h : Heap) :
    Done A h (Bech32.fixedFromBech32 junk pre s) (fixedFrom A junk pre s) := by
  unfold fixedFrom
  split
  · rename_i h1
    have : Bech32.fixedFromBech32 junk pre s = .err .encoding := by simp only [Bech32.fixedFromBech32]; rw [if_pos h1]
    rw [this]; exact done_pure _ _ _
  · rename_i h1
    split
    · rename_i h2
      have : Bech32.fixedFromBech32 junk pre s = .err .encoding := by simp only [Bech32.fixedFromBech32]; rw [if_neg h1, if_pos h2]
      rw [this]; exact done_pure _ _ _
    · split
      · exact done_copy hA _ _
      · exact done_pure _ _ _

/-- **C189** (public keys with any prefix, writing). -/
theorem C189_key_to {A : Alloc} (hA : Fresh A) (key pre : Bytes) (size : Nat) (h : Heap) :
    Done A h (Bech32.keyToBech32 key pre size) (keyTo A key pre size) := by
  unfold keyTo Bech32.keyToBech32
  split
  · exact done_pure _ _ _
  · split
    · rename_i h2
      have : Bech32.encode32 pre key = .err .encoding := by simp only [Bech32.encode32]; rw [if_pos h2]
      rw [this]; exact done_pure _ _ _
    · rename_i h2
      split
      · rename_i h3
        have : Bech32.encode32 pre key = .err .encoding := by
          simp only [Bech32.encode32]; rw [if_neg h2]; simp [Bech32.createChecksum, h3]
        rw [this]; exact done_pure _ _ _
      · exact done_copy hA _ _

/-- **C189** (secret keys and event ids, writing). -/
theorem C189_fixed_to {A : Alloc} (hA : Fresh A) (key : Bytes) (size : Nat) (h : Heap) :
    Done A h (Bech32.privkeyToBech32 key size) (fixedTo A c!"nsec" key size) ∧
    Done A h (Bech32.eventIdToBech32 key size) (fixedTo A c!"note" key size) := by
  constructor
  all_goals
    unfold fixedTo
    first | unfold Bech32.privkeyToBech32 | unfold Bech32.eventIdToBech32
    split
    · exact done_pure _ _ _
    · split
      · rename_i h2
        have : ∀ pre, Bech32.encode32 pre key = .err .encoding := fun pre => by simp only [Bech32.encode32]; rw [if_pos h2]
        rw [this]; exact done_pure _ _ _
      · exact done_copy hA _ _

/-- A key is written with memory, and refused without. -/
example : (∃ t h', fixedTo (Filter.Props.failAt 9) c!"nsec" (List.replicate 32 7) 64 ⟨fun _ => none, 0⟩ = some (.ok t, h')) ∧
    ∃ h', fixedTo (Filter.Props.failAt 0) c!"nsec" (List.replicate 32 7) 64 ⟨fun _ => none, 0⟩ = some (.err .encoding, h') :=
  ⟨⟨_, _, rfl⟩, _, rfl⟩

/-- C138 for URIs: after parsing, successful or not, releasing the result brings memory back as it was and leaves nothing to
release; doing it again is harmless. The hypothesis leaves out the `npub`, `nsec` and `note` texts that overflow a buffer
(`C75`). -/
theorem C138_uri_partial {A : Alloc} (hA : Fresh A) {junk : Bytes} (uri : Bytes) (h : Heap) (hj : Nip21.uriParse junk uri ≠ .ub) :
    ∃ r h' h'' , uriParse A junk uri h = some (r, h') ∧
      ((∃ x, r.1 = .err x ∧ h'.mem = h.mem ∧ (Nip21.uriParse junk uri = .err x ∨ (Refused A h.mem ∧ (x = .memory ∨ x = .encoding)))) ∨
        ∃ u, r.1 = .ok u ∧ Nip21.uriParse junk uri = .ok u ∧ Rel h.mem h'.mem r.2.rel (uriRelays u)) ∧
      uriFree r.2 h' = some (⟨r.2.pointer, empty⟩, h'') ∧ h''.mem = h.mem ∧
      uriFree ⟨r.2.pointer, empty⟩ h'' = some (⟨r.2.pointer, empty⟩, h'') := by
  have again : ∀ (b : Bool) (g : Heap), uriFree ⟨b, empty⟩ g = some (⟨b, empty⟩, g) := by
    intro b g; cases b <;> rfl
  have plain : ∀ {v : Res Nip21.Uri}, v ≠ .ub → (∀ u, v = .ok u → uriRelays u = []) →
      ∃ r h' h'', (M.pure (v, (⟨false, empty⟩ : HUri)) : M _) h = some (r, h') ∧
      ((∃ x, r.1 = .err x ∧ h'.mem = h.mem ∧ (v = .err x ∨ (Refused A h.mem ∧ (x = .memory ∨ x = .encoding)))) ∨
        ∃ u, r.1 = .ok u ∧ v = .ok u ∧ Rel h.mem h'.mem r.2.rel (uriRelays u)) ∧
      uriFree r.2 h' = some (⟨r.2.pointer, empty⟩, h'') ∧ h''.mem = h.mem ∧
      uriFree ⟨r.2.pointer, empty⟩ h'' = some (⟨r.2.pointer, empty⟩, h'') := by
    intro v hv hr
    refine ⟨_, h, h, rfl, ?_, again _ _, rfl, again _ _⟩
    cases v with
    | ub => exact absurd rfl hv
    | err x => exact .inl ⟨x, rfl, rfl, .inl rfl⟩
    | ok u => exact .inr ⟨u, rfl, rfl, by rw [hr u rfl]; exact Rel.nil _⟩
  have simple : ∀ {f : Bytes → Nip21.Uri} {v : Res Bytes} {m : M (Res Bytes)}, Done A h v m → f <$> v ≠ .ub → (∀ x, uriRelays (f x) = []) →
      ∃ r h' h'', (M.bind m fun r => M.pure (f <$> r, (⟨false, empty⟩ : HUri))) h = some (r, h') ∧
      ((∃ x, r.1 = .err x ∧ h'.mem = h.mem ∧ (f <$> v = .err x ∨ (Refused A h.mem ∧ (x = .memory ∨ x = .encoding)))) ∨
        ∃ u, r.1 = .ok u ∧ f <$> v = .ok u ∧ Rel h.mem h'.mem r.2.rel (uriRelays u)) ∧
      uriFree r.2 h' = some (⟨r.2.pointer, empty⟩, h'') ∧ h''.mem = h.mem ∧
      uriFree ⟨r.2.pointer, empty⟩ h'' = some (⟨r.2.pointer, empty⟩, h'') := by
    rintro f v m ⟨r, g, e1, m1, hr⟩ hv hf
    refine ⟨(f <$> r, ⟨false, empty⟩), g, g, by simp only [M.bind, e1, Option.bind_some]; rfl, ?_, again _ _, m1, again _ _⟩
    rcases hr with rfl | ⟨rfl, rf⟩
    · cases r with
      | ub => exact absurd rfl hv
      | err x => exact .inl ⟨x, rfl, m1, .inl rfl⟩
      | ok u => exact .inr ⟨f u, rfl, rfl, by rw [hf u, m1]; exact Rel.nil _⟩
    · exact .inl ⟨.encoding, rfl, m1, .inr ⟨rf, .inr rfl⟩⟩
  have ptr : ∀ {v : Res Nip21.Uri} {r : Res Nip21.Uri × HRel} {g : Heap}, Outcome A h.mem v uriRelays r g →
      ∃ h'', ((∃ x, r.1 = .err x ∧ g.mem = h.mem ∧ (v = .err x ∨ (Refused A h.mem ∧ (x = .memory ∨ x = .encoding)))) ∨
        ∃ u, r.1 = .ok u ∧ v = .ok u ∧ Rel h.mem g.mem r.2 (uriRelays u)) ∧
      uriFree ⟨true, r.2⟩ g = some (⟨true, empty⟩, h'') ∧ h''.mem = h.mem := by
    intro v r g o
    rcases o with ⟨x, rfl, m, hv⟩ | ⟨w, h', hv, h1, h2, h3, h4⟩
    · exact ⟨g, .inl ⟨x, rfl, m, hv⟩, again true g, m⟩
    · refine ⟨h', .inr ⟨w, h1, hv, h2⟩, ?_, h4⟩
      unfold uriFree
      simp only [if_true, M.bind, h3, Option.bind_some, M.pure]
  unfold uriParse
  unfold Nip21.uriParse at hj ⊢
  by_cases h0 : uri.take 6 ≠ c!"nostr:"
  · rw [if_pos h0, if_pos h0]; exact plain (by simp) (by simp)
  rw [if_neg h0] at hj ⊢
  rw [if_neg h0]
  simp only at hj ⊢
  generalize uri.drop 6 = entity at hj ⊢
  have shape : ∀ {α : Type} {f : α → Nip21.Uri} {v : Res α} {u : Nip21.Uri}, f <$> v = .ok u → ∃ x, f x = u := by
    intro α f v u hu
    cases v with
    | ub => cases hu
    | err _ => cases hu
    | ok x => exact ⟨x, by injection hu⟩
  by_cases h1 : entity.take 5 = c!"npub1"
  · rw [if_pos h1] at hj ⊢
    rw [if_pos h1]
    exact simple (C189_key_from hA entity h) hj fun _ => rfl
  rw [if_neg h1] at hj ⊢
  rw [if_neg h1]
  by_cases h2 : entity.take 5 = c!"nsec1"
  · rw [if_pos h2] at hj ⊢
    rw [if_pos h2]
    exact simple (C189_fixed_from hA junk c!"nsec" entity h) hj fun _ => rfl
  rw [if_neg h2] at hj ⊢
  rw [if_neg h2]
  by_cases h3 : entity.take 5 = c!"note1"
  · rw [if_pos h3] at hj ⊢
    rw [if_pos h3]
    exact simple (C189_fixed_from hA junk c!"note" entity h) hj fun _ => rfl
  rw [if_neg h3] at hj ⊢
  rw [if_neg h3]
  by_cases h4 : entity.take 9 = c!"nprofile1"
  · rw [if_pos h4, if_pos h4]
    obtain ⟨r, g, e1, o⟩ := C138_nprofile hA entity h
    obtain ⟨g2, hx, e2, m2⟩ := ptr (map_ok (f := Nip21.Uri.nprofile) (k := uriRelays) (fun _ => rfl) o)
    exact ⟨(Nip21.Uri.nprofile <$> r.1, ⟨true, r.2⟩), g, g2, by simp only [M.bind, e1, Option.bind_some, M.pure], hx, e2, m2, again _ _⟩
  rw [if_neg h4, if_neg h4]
  by_cases h5 : entity.take 7 = c!"nevent1"
  · rw [if_pos h5, if_pos h5]
    obtain ⟨r, g, e1, o⟩ := C138_nevent hA entity h
    obtain ⟨g2, hx, e2, m2⟩ := ptr (map_ok (f := Nip21.Uri.nevent) (k := uriRelays) (fun _ => rfl) o)
    exact ⟨(Nip21.Uri.nevent <$> r.1, ⟨true, r.2⟩), g, g2, by simp only [M.bind, e1, Option.bind_some, M.pure], hx, e2, m2, again _ _⟩
  rw [if_neg h5, if_neg h5]
  by_cases h6 : entity.take 6 = c!"naddr1"
  · rw [if_pos h6, if_pos h6]
    obtain ⟨r, g, e1, o⟩ := C138_naddr hA entity h
    obtain ⟨g2, hx, e2, m2⟩ := ptr (map_ok (f := Nip21.Uri.naddr) (k := uriRelays) (fun _ => rfl) o)
    exact ⟨(Nip21.Uri.naddr <$> r.1, ⟨true, r.2⟩), g, g2, by simp only [M.bind, e1, Option.bind_some, M.pure], hx, e2, m2, again _ _⟩
  rw [if_neg h6, if_neg h6]
  by_cases h7 : entity.take 7 = c!"nrelay1"
  · rw [if_pos h7, if_pos h7]
    obtain ⟨v, g, e1, m1, hv⟩ := decodeBytes_ok hA entity c!"nrelay" 512 h
    unfold nrelayDecode
    simp only [M.bind, e1, Option.bind_some, M.pure]
    refine ⟨_, g, g, rfl, ?_, again _ _, m1, again _ _⟩
    have hj' : Nip21.Uri.nrelay <$> Nip21.nrelayDecode entity ≠ .ub := by
      simpa only [if_neg h4, if_neg h5, if_neg h6, if_pos h7] using hj
    unfold Nip21.nrelayDecode at hj' ⊢
    rcases hv with rfl | ⟨f, rfl | rfl⟩
    · generalize hq : Nip21.Uri.nrelay <$> (Nip21.decodeBytes entity c!"nrelay" 512 >>= fun data =>
        parseTlv ⟨maxRelayLen, false, 0, false, false⟩ data >>= fun t =>
          if t.special.length = 0 ∨ t.special.length ≥ maxRelayLen then .err .encoding else .ok (cstrOf t.special)) = q at hj' ⊢
      cases q with
      | ub => exact absurd rfl hj'
      | err x => exact .inl ⟨x, rfl, m1, .inl rfl⟩
      | ok u =>
        refine .inr ⟨u, rfl, rfl, ?_⟩
        obtain ⟨x, rfl⟩ := shape hq
        rw [m1]; exact Rel.nil _
    · exact .inl ⟨_, rfl, m1, .inr ⟨f, .inl rfl⟩⟩
    · exact .inl ⟨_, rfl, m1, .inr ⟨f, .inr rfl⟩⟩
  rw [if_neg h7, if_neg h7]
  exact plain (by simp) (by simp)

/-! ## C139 -/

/-- **C139 (part).** With every allocator, encoding bytes gives the text, or the error, or reports that memory was refused, and leaves memory as
it was. Missing: a refusal of the copy made for the checksum, when a text would have been written; this is the only way to go wrong. -/
theorem C139_encode_partial {A : Alloc} (hA : Fresh A) (data hrp : Bytes) (n : Nat) (h : Heap)
    (hu : Nip21.encodeBytes data hrp n ≠ .ub) :
    (∃ r h', encodeBytes A data hrp n h = some (r, h') ∧ h'.mem = h.mem ∧
      (r = Nip21.encodeBytes data hrp n ∨ r = .err .memory ∧ Refused A h.mem)) ∨
    (encodeBytes A data hrp n h = none ∧ Refused A h.mem ∧ ∃ s, Nip21.encodeBytes data hrp n = .ok s) := by
  unfold encodeBytes
  unfold Nip21.encodeBytes at hu ⊢
  simp only [M.bind]
  rcases allocP hA (Owned.nil h.mem) (.str []) with ⟨g, e1, m1, f1⟩ | ⟨d, g, e1, -, o1, -⟩
  · simp only [e1, Option.bind_some]
    exact .inl ⟨_, g, rfl, m1, .inr ⟨rfl, f1⟩⟩
  · obtain ⟨g1, e2, o2, -⟩ := freeP (p := some d) (b := []) o1
    simp only [e1, Option.bind_some] at hu ⊢
    generalize convertBits data ((data.length * 8 + 4) / 5) 8 5 true = conv at hu ⊢
    by_cases h1 : conv = []
    · rw [if_pos h1, if_pos h1]
      exact .inl ⟨_, g1, by simp only [M.bind, e2, Option.bind_some, M.pure], o2.eq, .inl rfl⟩
    · rw [if_neg h1] at hu ⊢
      rw [if_neg h1]
      by_cases h2 : n < hrp.length + 1 + conv.length + 6 + 1
      · rw [if_pos h2, if_pos h2]
        exact .inl ⟨_, g1, by simp only [M.bind, e2, Option.bind_some, M.pure], o2.eq, .inl rfl⟩
      · rw [if_neg h2] at hu ⊢
        rw [if_neg h2]
        cases hc : createChecksum hrp conv with
        | none => rw [hc] at hu; exact absurd rfl hu
        | some ck =>
          simp only [M.bind]
          rcases allocP hA o1 (.str []) with ⟨g2, e3, m3, f3⟩ | ⟨t, g2, e3, -, o3, -⟩
          · exact .inr ⟨by simp only [e3, Option.bind_some], f3, _, rfl⟩
          · obtain ⟨g4, e4, o4, -⟩ := freeP (p := some t) (b := [d]) o3
            obtain ⟨g5, e5, o5, -⟩ := freeP (p := some d) (b := []) o4
            exact .inl ⟨_, g5, by simp only [M.bind, e3, e4, e5, Option.bind_some, M.pure], o5.eq, .inl rfl⟩

/-- C139 fails: when there is no memory for the copy made by the checksum, encoding goes on with a checksum that was never
written. Here the 34 bytes of a profile without relays, with an allocator that refuses the second request. -/
theorem C139_checksum_refuted :
    encodeBytes (Filter.Props.failAt 1) ([0, 32] ++ List.replicate 32 7) c!"nprofile" 100 ⟨fun _ => none, 0⟩ = none ∧
    (Nip21.encodeBytes ([0, 32] ++ List.replicate 32 7) c!"nprofile" 100).isOk = true := by
  constructor
  · have : (encodeBytes (Filter.Props.failAt 1) ([0, 32] ++ List.replicate 32 7) c!"nprofile" 100 ⟨fun _ => none, 0⟩).isNone = true := by
      decide +kernel
    simpa using this
  · decide +kernel

/-- C138 fails for the texts of C75: the `npub` of 96 characters leaves its buffer, whatever the allocator does. -/
theorem C138_uri_refuted (A : Alloc) (junk : Bytes) (h : Heap) :
    ∃ r h', uriParse A junk (c!"nostr:npub1" ++ List.replicate 85 0x71) h = some (r, h') ∧ r.1 = .ub := by
  have hu : keyFrom A (c!"npub1" ++ List.replicate 85 0x71) = M.pure .ub := by
    have hl : Bech32.lastOne (c!"npub1" ++ List.replicate 85 0x71) = some 4 := by decide +kernel
    have hs : Bech32.readSyms 84 0 ((c!"npub1" ++ List.replicate 85 0x71).drop 5) = .ub := by decide +kernel
    unfold keyFrom
    rw [Bech32.Props.C05_npub_overflow_refuted, if_neg (by decide), hl]
    simp only
    rw [if_neg (by decide), if_neg (by decide), hs]
  refine ⟨(.ub, ⟨false, empty⟩), h, ?_, rfl⟩
  have : uriParse A junk (c!"nostr:npub1" ++ List.replicate 85 0x71) =
      M.bind (keyFrom A (c!"npub1" ++ List.replicate 85 0x71)) fun r => M.pure (Nip21.Uri.npub <$> r, ⟨false, empty⟩) := by rfl
  rw [this, hu]
  rfl

/-- The text of a profile with one relay, and the outcome of decoding it with the `k`-th request refused. -/
def sample (k : Nat) : Option (Bool × Nat × Nat) :=
  match Nip21.encodeBytes ([0, 32] ++ List.replicate 32 7 ++ [1, 9] ++ c!"wss://r.s") c!"nprofile" 200 with
  | .ok s => (nprofileDecode (Filter.Props.failAt k) s ⟨fun _ => none, 0⟩).map fun r => (r.1.1.isOk, r.1.2.count, r.2.tick)
  | _ => none

/-- With memory for three requests there is one relay; without the third there is none. -/
example : sample 99 = some (true, 1, 3) ∧ sample 2 = some (false, 0, 3) := by decide +kernel

end Nostr.Own.Uri.Props
