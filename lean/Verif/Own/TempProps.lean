import Verif.Own.Temp
import Verif.Own.EvProps
import Verif.Hd.Props
import Verif.Hd.Path

/-! # C183: calls that hand out no memory leave memory as it was, and report a lack of it -/

namespace Nostr.Own.Temp.Props
open Nostr Nostr.Heap Nostr.Text Nostr.Own
open Nostr.Event (Event)
open Nostr.Nip10 (Info parseE copyOut)
open Nostr.Hd (Crypto HdKey)

/-- The call ends without undefined behaviour, memory is as before, and its result is `v`, or it reports that memory ran out
when it did. -/
def Leaves (A : Alloc) (h : Heap) (m : M (Res α)) (v : Res α) : Prop :=
  ∃ r h', m h = some (r, h') ∧ h'.mem = h.mem ∧ (r = v ∨ r = .err .memory ∧ Refused A h.mem)

/-- The array of references: taken, and readable until released. -/
theorem entry_ok {h : Heap} {a : Nat} {l : List Info} {i : Nat} {x : Info} (ha : h.mem a ≠ none) (hx : l[i]? = some x) :
    entry (some a) l i h = some (x, h) := by
  have : (h.mem a).isSome = true := Option.isSome_iff_ne_none.2 ha
  simp [entry, this, hx]

theorem search_ok {h : Heap} {a : Nat} {l : List Info} {marker : Bytes} (ha : h.mem a ≠ none) :
    ∀ n i, n + i = l.length → search (some a) l marker n i h = some ((l.drop i).find? (fun x => x.marker == marker), h) := by
  intro n
  induction n with
  | zero =>
    intro i hi
    rw [List.drop_eq_nil_of_le (by omega)]
    rfl
  | succ n ih =>
    intro i hi
    have hlt : i < l.length := by omega
    rw [List.drop_eq_getElem_cons hlt]
    simp only [search, M.bind, entry_ok ha (List.getElem?_eq_getElem hlt), Option.bind_some, List.find?_cons]
    split
    · rename_i e; rw [e]; rfl
    · rename_i e
      rw [ih (i + 1) (by omega)]
      simp only [Bool.not_eq_true] at e
      rw [e]

theorem counts_parse (t : List Bytes) : counts t = (parseE t).isSome := by
  unfold counts parseE
  split
  · rename_i name _ _
    by_cases h : name = c!"e" <;> simp [h]
  · simp_all

theorem filter_length (tags : List (List Bytes)) : (tags.filter counts).length = (Nip10.collect tags).length := by
  unfold Nip10.collect
  induction tags with
  | nil => rfl
  | cons t ts ih =>
    rw [List.filter_cons, List.filterMap_cons, counts_parse]
    cases parseE t with
    | none => simpa using ih
    | some x => simpa using ih

theorem collect_ok {A : Alloc} (hA : Fresh A) (tags : List (List Bytes)) (h : Heap) :
    (Nip10.collect tags = [] ∧ collect A tags h = some (.err .notFound, h)) ∨
    (Nip10.collect tags ≠ [] ∧ ∃ h', collect A tags h = some (.err .memory, h') ∧ h'.mem = h.mem ∧ Refused A h.mem) ∨
    ∃ a h', Nip10.collect tags ≠ [] ∧ collect A tags h = some (.ok (some a, Nip10.collect tags), h') ∧ Owned h.mem h'.mem [a] := by
  unfold collect
  rw [filter_length]
  by_cases hn : Nip10.collect tags = []
  · left
    simp [hn, M.pure]
  · right
    rw [if_neg (by simpa using hn)]
    rcases allocP hA (Owned.nil h.mem) (.str []) with ⟨h1, e1, m1, r1⟩ | ⟨a, h1, e1, _, o1, _⟩
    · left
      refine ⟨hn, h1, ?_, m1, r1⟩
      simp only [M.bind, e1, Option.bind_some, M.pure]
    · right
      refine ⟨a, h1, hn, ?_, o1⟩
      simp only [M.bind, e1, Option.bind_some]
      cases hc : Nip10.collect tags with
      | nil => exact absurd hc hn
      | cons i is =>
        have hc' : tags.filterMap parseE = i :: is := hc
        simp only [hc', M.pure, List.take_length]

theorem find_ok {A : Alloc} (hA : Fresh A) (e : Event) (marker : Bytes) (last : Bool) (n k : Nat) (h : Heap) :
    Leaves A h (findByMarker A e marker last n k) (Nip10.findByMarker e marker last n k) := by
  unfold findByMarker Nip10.findByMarker
  by_cases hs : n < 65
  · simp only [if_pos hs]
    exact ⟨_, h, rfl, rfl, .inl rfl⟩
  simp only [if_neg hs]
  rcases collect_ok hA e.tags h with ⟨hn, e1⟩ | ⟨hn, h1, e1, m1, r1⟩ | ⟨a, h1, hn, e1, o1⟩
  · rw [hn]
    exact ⟨.err .notFound, h, by simp only [M.bind, e1, Option.bind_some, M.pure], rfl, .inl rfl⟩
  · exact ⟨.err .memory, h1, by simp only [M.bind, e1, Option.bind_some, M.pure], m1, .inr ⟨rfl, r1⟩⟩
  · obtain ⟨h2, e2, _, o2⟩ := Owned.free (b := []) o1
    have ha := o1.live a (by simp)
    have hsr := search_ok (l := Nip10.collect e.tags) (marker := marker) ha (Nip10.collect e.tags).length 0 (by omega)
    rw [List.drop_zero] at hsr
    cases hc : Nip10.collect e.tags with
    | nil => exact absurd hc hn
    | cons i is =>
      rw [hc] at e1 hsr
      refine ⟨_, h2, ?_, o2.eq, .inl rfl⟩
      simp only [M.bind, e1, Option.bind_some, hsr]
      cases hf : (i :: is).find? (fun x => x.marker == marker) with
      | some x => simp only [M.bind, e2, Option.bind_some, M.pure]
      | none =>
        cases last with
        | false =>
          have := entry_ok (l := i :: is) (i := 0) (x := i) ha rfl
          simp [M.bind, this, e2, M.pure]
        | true =>
          have hx : (i :: is)[(i :: is).length - 1]? = some ((i :: is).getLast (by simp)) := by
            rw [← List.getLast?_eq_getElem?, List.getLast?_eq_some_getLast (by simp)]
          have := entry_ok (l := i :: is) ha hx
          rw [if_neg (by simp), if_pos (by simp)]
          simp only [M.bind, this, e2, Option.bind_some, M.pure]
          rfl

/-- **C183, references of a note**: the event a note answers and the one that began the thread are looked up without leaving
anything in memory, with the result of C52 or the report that memory ran out. -/
theorem C183_thread {A : Alloc} (hA : Fresh A) (e : Event) (n k : Nat) (h : Heap) :
    Leaves A h (getRootId A e n k) (Nip10.getRootId e n k) ∧ Leaves A h (getReplyId A e n k) (Nip10.getReplyId e n k) :=
  ⟨find_ok hA e _ _ n k h, find_ok hA e _ _ n k h⟩

/-- **C183, whether a note is an answer**: memory is as before, and the answer is the right one if no memory is refused. A note
that is no answer is never taken for one. -/
theorem C183_reply_partial {A : Alloc} (hA : Fresh A) (e : Event) (h : Heap) :
    ∃ b h', isReply A e h = some (b, h') ∧ h'.mem = h.mem ∧ (b = Nip10.isReply e ∨ b = false ∧ Refused A h.mem) := by
  obtain ⟨r, h', e1, m1, hr⟩ := find_ok hA e c!"reply" true 65 0 h
  have hu : r ≠ .ub := by
    rintro rfl
    rcases hr with hr | hr
    · unfold Nip10.findByMarker at hr
      rw [if_neg (by omega)] at hr
      split at hr
      · cases hr
      · split at hr <;> cases hr
    · cases hr.1
  unfold isReply getReplyId Nip10.isReply Nip10.getReplyId
  cases r with
  | ub => exact absurd rfl hu
  | err x =>
    refine ⟨false, h', by simp only [M.bind, e1, Option.bind_some, M.pure], m1, ?_⟩
    rcases hr with hr | ⟨_, hr⟩
    · left; rw [← hr]
    · exact .inr ⟨rfl, hr⟩
  | ok v =>
    obtain ⟨id, rel⟩ := v
    refine ⟨decide (id ≠ []), h', by simp only [M.bind, e1, Option.bind_some, M.pure], m1, .inl ?_⟩
    rcases hr with hr | hr
    · rw [← hr]
    · cases hr.1

/-- **C183 fails** for the question whether a note is an answer: when memory is refused, every answer is reported, with success,
to be none. -/
theorem C183_reply_refuted {A : Alloc} (e : Event) (h : Heap) (hn : A h.mem h.tick = none) :
    ∃ h', isReply A e h = some (false, h') := by
  have hc : ∃ x h', collect A e.tags h = some (.err x, h') := by
    unfold collect
    by_cases hs : (e.tags.filter counts).length = 0
    · exact ⟨_, h, by rw [if_pos hs]; rfl⟩
    · refine ⟨.memory, ⟨h.mem, h.tick + 1⟩, ?_⟩
      rw [if_neg hs]
      simp only [M.bind, alloc, hn, Option.bind_some, M.pure]
  obtain ⟨x, h', e1⟩ := hc
  refine ⟨h', ?_⟩
  unfold isReply getReplyId findByMarker
  rw [if_neg (by omega)]
  simp only [M.bind, e1, Option.bind_some, M.pure]

/-- An answer: a note with a reference marked "reply". -/
def answer : Event := { (⟨[], [], 0, 1, [], none, []⟩ : Event) with tags := [[c!"e", c!"aa", c!"", c!"root"], [c!"e", c!"bb", c!"", c!"reply"]] }

/-- With memory it is recognised, without it is not. -/
example : (isReply (Filter.Props.failAt 5) answer ⟨fun _ => none, 0⟩).map (·.1) = some true ∧
    (isReply (Filter.Props.failAt 0) answer ⟨fun _ => none, 0⟩).map (·.1) = some false := by decide +kernel

example : (getReplyId (Filter.Props.failAt 5) answer 65 10 ⟨fun _ => none, 0⟩).map (·.1) = some (.ok (c!"bb", c!"")) ∧
    (getRootId (Filter.Props.failAt 0) answer 65 10 ⟨fun _ => none, 0⟩).map (·.1) = some (.err .memory) := by decide +kernel

/-! ## Keys from mnemonics -/

/-- A copy that is owned can be read. -/
theorem load_ok {h : Heap} {c : Nat} (hc : h.mem c ≠ none) : ∃ o, load c h = some (o, h) := by
  unfold load
  cases hm : h.mem c with
  | none => exact absurd hm hc
  | some o => exact ⟨o, rfl⟩

theorem path_ok (C : Crypto) {m0 : Mem} {c : Nat} : ∀ (ts : List Bytes) (k : HdKey) (h : Heap), Owned m0 h.mem [c] →
    ∃ h', pathLoop C c ts k h = some (Hd.pathLoop C ts k, h') ∧ h'.mem = m0 := by
  intro ts
  induction ts with
  | nil =>
    intro k h o
    obtain ⟨v, e0⟩ := load_ok (o.live c (by simp))
    obtain ⟨h2, e2, _, o2⟩ := Owned.free (b := []) o
    exact ⟨h2, by simp only [pathLoop, M.bind, e0, e2, Option.bind_some, M.pure, Hd.pathLoop], o2.eq⟩
  | cons t ts ih =>
    intro k h o
    obtain ⟨v, e0⟩ := load_ok (o.live c (by simp))
    obtain ⟨h2, e2, _, o2⟩ := Owned.free (b := []) o
    simp only [pathLoop, M.bind, e0, Option.bind_some, Hd.pathLoop]
    cases Hd.component t with
    | none => exact ⟨h2, by simp only [M.bind, e2, Option.bind_some, M.pure], o2.eq⟩
    | some i =>
      simp only
      cases hd : Hd.derive C k i with
      | ub => exact absurd hd (Hd.Props.derive_noub _ _ _)
      | err x => exact ⟨h2, by simp only [M.bind, e2, Option.bind_some, M.pure]; rfl, o2.eq⟩
      | ok n => exact ih n h o

/-- **C183, deriving a key along a path.** -/
theorem C183_path {A : Alloc} (hA : Fresh A) (C : Crypto) (master : HdKey) (path : Bytes) (h : Heap) :
    Leaves A h (derivePath A C master path) (Hd.derivePath C master path) := by
  unfold derivePath Hd.derivePath
  split
  · exact ⟨_, h, rfl, rfl, .inl rfl⟩
  · rename_i rest
    rcases allocP hA (Owned.nil h.mem) (.str rest) with ⟨h1, e1, m1, r1⟩ | ⟨a, h1, e1, _, o1, _⟩
    · exact ⟨.err .memory, h1, by simp only [M.bind, e1, Option.bind_some, M.pure], m1, .inr ⟨rfl, r1⟩⟩
    · obtain ⟨h2, e2, m2⟩ := path_ok C (tokens 0x2f rest) master h1 o1
      exact ⟨_, h2, by simp only [M.bind, e1, Option.bind_some, e2], m2, .inl rfl⟩
  · rename_i h1 h2
    refine ⟨_, h, rfl, rfl, .inl ?_⟩
    split
    · exact absurd rfl h1
    · exact absurd rfl (h2 _)
    · rfl

theorem words_ok {m0 : Mem} {c : Nat} : ∀ (ws : List Bytes) (acc : List Nat) (h : Heap), Owned m0 h.mem [c] →
    ∃ h', readWords c ws acc h = some (Hd.readWords ws acc.length >>= fun is => .ok (acc ++ is), h') ∧ h'.mem = m0 := by
  intro ws
  induction ws with
  | nil =>
    intro acc h o
    obtain ⟨v, e0⟩ := load_ok (o.live c (by simp))
    obtain ⟨h2, e2, _, o2⟩ := Owned.free (b := []) o
    exact ⟨h2, by simp [readWords, M.bind, e0, e2, M.pure, Hd.readWords], o2.eq⟩
  | cons w ws ih =>
    intro acc h o
    obtain ⟨v, e0⟩ := load_ok (o.live c (by simp))
    obtain ⟨h2, e2, _, o2⟩ := Owned.free (b := []) o
    simp only [readWords, M.bind, e0, Option.bind_some, Hd.readWords]
    by_cases hl : acc.length < 24
    · simp only [if_pos hl]
      cases Hd.wordIndex w with
      | none => exact ⟨h2, by simp only [M.bind, e2, Option.bind_some, M.pure]; rfl, o2.eq⟩
      | some i =>
        obtain ⟨h', e', m'⟩ := ih (acc ++ [i]) h o
        refine ⟨h', ?_, m'⟩
        simp only
        rw [e']
        rw [List.length_append, List.length_singleton]
        cases Hd.readWords ws (acc.length + 1) with
        | ok is => simp
        | err x => rfl
        | ub => rfl
    · simp only [if_neg hl]
      exact ⟨h2, by simp only [M.bind, e2, Option.bind_some, M.pure]; rfl, o2.eq⟩

/-- **C183, checking a mnemonic.** -/
theorem C183_check {A : Alloc} (hA : Fresh A) (C : Crypto) (mnemonic : Bytes) (h : Heap) :
    Leaves A h (validate A C mnemonic) (Hd.validate C mnemonic) := by
  unfold validate Hd.validate
  by_cases hm : mnemonic = []
  · simp only [if_pos hm]
    exact ⟨_, h, rfl, rfl, .inl rfl⟩
  simp only [if_neg hm]
  rcases allocP hA (Owned.nil h.mem) (.str mnemonic) with ⟨h1, e1, m1, r1⟩ | ⟨a, h1, e1, _, o1, _⟩
  · exact ⟨.err .memory, h1, by simp only [M.bind, e1, Option.bind_some, M.pure], m1, .inr ⟨rfl, r1⟩⟩
  · obtain ⟨h2, e2, m2⟩ := words_ok (tokens 0x20 mnemonic) [] h1 o1
    refine ⟨_, h2, ?_, m2, .inl rfl⟩
    simp only [M.bind, e1, Option.bind_some, e2, List.length_nil, List.nil_append]
    cases hr : Hd.readWords (tokens 0x20 mnemonic) 0 with
    | ub => exact absurd hr (Hd.readWords_noub _ _)
    | err x => rfl
    | ok is => rfl

/-- An optional owned copy and its text. -/
theorem derived_ok {A : Alloc} (hA : Fresh A) (C : Crypto) {m0 : Mem} {m p : Option Nat} {mt pt : M Bytes} {ms ps : Bytes} {h : Heap}
    (o : Owned m0 h.mem (m.toList ++ p.toList)) (hp : pt h = some (ps, h))
    (hm : ∀ h' : Heap, (∀ x ∈ m.toList ++ p.toList, h'.mem x = h.mem x) → mt h' = some (ms, h')) :
    ∃ r h', derived A C m p mt pt h = some (r, h') ∧ h'.mem = m0 ∧ (r = Hd.toSeed.run C ms ps ∨ r = .err .memory ∧ Refused A m0) := by
  unfold derived
  simp only [M.bind, hp, Option.bind_some]
  rcases allocP hA o (.str (c!"mnemonic" ++ ps)) with ⟨h1, e1, m1, r1⟩ | ⟨a, h1, e1, v1, o1, s1⟩
  · have o1 : Owned m0 h1.mem (m.toList ++ p.toList) := m1 ▸ o
    obtain ⟨h2, e2, o2, _⟩ := freeP o1
    obtain ⟨h3, e3, o3, _⟩ := freeP (b := []) (by simpa using o2)
    exact ⟨.err .memory, h3, by simp only [M.bind, e1, e2, e3, Option.bind_some, M.pure], o3.eq, .inr ⟨rfl, r1⟩⟩
  · have e2 := hm h1 s1
    have e3 : loadStr a h1 = some (c!"mnemonic" ++ ps, h1) := by simp [loadStr, v1]
    obtain ⟨h4, e4, _, o4⟩ := Owned.free o1
    obtain ⟨h5, e5, o5, _⟩ := freeP o4
    obtain ⟨h6, e6, o6, _⟩ := freeP (b := []) (by simpa using o5)
    refine ⟨_, h6, ?_, o6.eq, .inl rfl⟩
    simp only [M.bind, e1, e2, e3, e4, e5, e6, Option.bind_some, Hd.toSeed.run]
    cases C.pbkdf2 ms (c!"mnemonic" ++ ps) 2048 64 <;> rfl

theorem normalize_ok {A : Alloc} (hA : Fresh A) (norm : Bytes → Option Bytes) (s : Bytes) {m0 : Mem} {h : Heap} {own : List Nat} (o : Owned m0 h.mem own) :
    (∃ h', normalize A norm s h = some (none, h') ∧ h'.mem = h.mem ∧ (norm s = none ∨ Refused A m0)) ∨
    ∃ t c h', norm s = some t ∧ normalize A norm s h = some (some c, h') ∧ h'.mem c = some (.str t) ∧ Owned m0 h'.mem (c :: own) ∧
      ∀ x ∈ own, h'.mem x = h.mem x := by
  unfold normalize
  cases hn : norm s with
  | none => exact .inl ⟨h, rfl, rfl, .inl rfl⟩
  | some t =>
    rcases allocP hA o (.str t) with ⟨h1, e1, m1, r1⟩ | ⟨a, h1, e1, v1, o1, s1⟩
    · exact .inl ⟨h1, e1, m1, .inr r1⟩
    · exact .inr ⟨t, a, h1, rfl, e1, v1, o1, s1⟩

theorem seed_ok {A : Alloc} (hA : Fresh A) (C : Crypto) (mnemonic : Bytes) (passphrase : Option Bytes) (h : Heap) :
    Leaves A h (toSeed A C mnemonic passphrase) (Hd.toSeed C mnemonic passphrase) := by
  obtain ⟨r, h1, e1, m1, hr⟩ := C183_check hA C mnemonic h
  unfold Leaves toSeed Hd.toSeed
  have hv := Hd.Props.C64_validate_total C mnemonic
  rcases hr with hr | ⟨hr, hf⟩
  · rw [← hr] at hv ⊢
    rcases hv with hv | hv
    · rw [hv] at e1 ⊢
      simp only [M.bind, e1, Option.bind_some, Res.bind_ok]
      have o : Owned h.mem h1.mem [] := m1 ▸ Owned.nil h.mem
      cases hk : C.nfkd with
      | none =>
        simp only
        by_cases ha : Hd.isAscii mnemonic = false ∨ Hd.isAscii (passphrase.getD []) = false
        · simp only [if_pos ha]
          exact ⟨_, h1, rfl, m1, .inl rfl⟩
        · simp only [if_neg ha]
          exact derived_ok (m := none) (p := none) hA C o rfl (fun _ _ => rfl)
      | some norm =>
        simp only
        rcases normalize_ok hA norm mnemonic o with ⟨h2, e2, m2, hn⟩ | ⟨t, c, h2, ht, e2, v2, o2, _⟩
        · refine ⟨.err .memory, h2, by simp only [M.bind, e2, Option.bind_some, M.pure], m2.trans m1, ?_⟩
          rcases hn with hn | hn
          · left; rw [hn]
          · exact .inr ⟨rfl, hn⟩
        · rw [ht]
          simp only [M.bind, e2, Option.bind_some]
          cases passphrase with
          | none =>
            refine derived_ok (m := some c) (p := none) hA C o2 rfl (fun h' s => ?_)
            have := s c (by simp)
            simp [textOf, loadStr, this, v2]
          | some p =>
            simp only
            rcases normalize_ok hA norm p o2 with ⟨h3, e3, m3, hn⟩ | ⟨t', c', h3, ht', e3, v3, o3, s3⟩
            · obtain ⟨h4, e4, _, o4⟩ := Owned.free (b := []) (m3 ▸ o2 : Owned h.mem h3.mem [c])
              refine ⟨.err .memory, h4, by simp only [M.bind, e3, e4, Option.bind_some, M.pure], o4.eq, ?_⟩
              rcases hn with hn | hn
              · left; rw [hn]
              · exact .inr ⟨rfl, hn⟩
            · rw [ht']
              simp only [M.bind, e3, Option.bind_some]
              refine derived_ok (m := some c) (p := some c') hA C (o3.perm (List.Perm.swap ..)) (by simp [textOf, loadStr, v3]) (fun h' s => ?_)
              have := s c (by simp)
              simp [textOf, loadStr, this, s3 c (by simp), v2]
    · rw [hv] at e1 ⊢
      exact ⟨.err .invalidParam, h1, by simp only [M.bind, e1, Option.bind_some, M.pure], m1, .inl rfl⟩
  · subst hr
    exact ⟨.err .memory, h1, by simp only [M.bind, e1, Option.bind_some, M.pure], m1, .inr ⟨rfl, hf⟩⟩

theorem seed_noub (C : Crypto) (mnemonic : Bytes) (passphrase : Option Bytes) : Hd.toSeed C mnemonic passphrase ≠ .ub := by
  have hrun : ∀ m p, Hd.toSeed.run C m p ≠ .ub := by
    intro m p
    unfold Hd.toSeed.run
    split <;> simp
  unfold Hd.toSeed
  rcases Hd.Props.C64_validate_total C mnemonic with hv | hv <;> rw [hv]
  · simp only [Res.bind_ok]
    split
    · split
      · simp
      · split
        · exact hrun _ _
        · split
          · simp
          · exact hrun _ _
    · split
      · simp
      · exact hrun _ _
  · intro h; cases h

/-- **C183, the seed of a mnemonic**, with and without the normalisation of texts. -/
theorem C183_seed {A : Alloc} (hA : Fresh A) (C : Crypto) (mnemonic : Bytes) (passphrase : Option Bytes) (h : Heap) :
    Leaves A h (toSeed A C mnemonic passphrase) (Hd.toSeed C mnemonic passphrase) := seed_ok hA C mnemonic passphrase h

/-- **C183, the keys of a mnemonic.** -/
theorem C183_keys {A : Alloc} (hA : Fresh A) (C : Crypto) (mnemonic : Bytes) (passphrase : Option Bytes) (account : Nat) (h : Heap) :
    Leaves A h (toKeypairOf A C mnemonic passphrase account) (Hd.toKeypairOf C mnemonic passphrase account) := by
  obtain ⟨r, h1, e1, m1, hr⟩ := seed_ok hA C mnemonic passphrase h
  unfold Leaves toKeypairOf Hd.toKeypairOf
  rcases hr with hr | ⟨hr, hf⟩
  · rw [← hr]
    cases r with
    | ub => exact absurd hr.symm (seed_noub C mnemonic passphrase)
    | err x => exact ⟨.err x, h1, by simp only [M.bind, e1, Option.bind_some, M.pure], m1, .inl rfl⟩
    | ok seed =>
      simp only [M.bind, e1, Option.bind_some, Res.bind_ok]
      cases hs : Hd.fromSeed C seed with
      | ub =>
        exfalso
        unfold Hd.fromSeed at hs
        split at hs
        · cases hs
        · split at hs
          · cases hs
          · split at hs <;> cases hs
      | err x => exact ⟨.err x, h1, rfl, m1, .inl rfl⟩
      | ok master =>
        simp only [Res.bind_ok]
        obtain ⟨r2, h2, e2, m2, hr2⟩ := C183_path hA C master ((c!"m/44'/1237'/" ++ Num.decNat account ++ c!"'/0/0").take 63) h1
        rcases hr2 with hr2 | ⟨hr2, hf2⟩
        · rw [← hr2]
          cases r2 with
          | ub => exact absurd hr2.symm (Hd.Props.C66_any_path _ _ _).1
          | err x => exact ⟨.err x, h2, by simp only [M.bind, e2, Option.bind_some, M.pure], m2.trans m1, .inl rfl⟩
          | ok k => exact ⟨.ok (Hd.toKeypair k), h2, by simp only [M.bind, e2, Option.bind_some, M.pure], m2.trans m1, .inl rfl⟩
        · subst hr2
          exact ⟨.err .memory, h2, by simp only [M.bind, e2, Option.bind_some, M.pure], m2.trans m1, .inr ⟨rfl, m1 ▸ hf2⟩⟩
  · subst hr
    exact ⟨.err .memory, h1, by simp only [M.bind, e1, Option.bind_some, M.pure], m1, .inr ⟨rfl, hf⟩⟩

/-- Twelve words, and a path, with memory and without: the copies cost three allocations (check, salt, path). -/
def phrase : Bytes := c!"abandon abandon abandon abandon abandon abandon abandon abandon abandon abandon abandon abandon"

example : (toKeypairOf (Filter.Props.failAt 9) Hd.Props.toyCrypto phrase none 0 ⟨fun _ => none, 0⟩).map (·.2.tick) = some 3 ∧
    (toKeypairOf (Filter.Props.failAt 1) Hd.Props.toyCrypto phrase none 0 ⟨fun _ => none, 0⟩).map (·.1) = some (.err .memory) ∧
    (derivePath (Filter.Props.failAt 9) Hd.Props.toyCrypto ⟨[1], [1], [1]⟩ c!"m/0'/x" ⟨fun _ => none, 0⟩).map (·.1) = some (.err .invalidParam) := by
  decide +kernel

end Nostr.Own.Temp.Props
