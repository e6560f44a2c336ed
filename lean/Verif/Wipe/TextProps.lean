import Verif.Wipe.Text
import Verif.Wipe.Spec
import Verif.RelayProto.Lemmas

/-! # C172: secrets written and read as text -/

namespace Nostr.Wipe.Text.Props
open Nostr Nostr.Wipe Nostr.Wipe.Spec Nostr.Wipe.Text Nostr.Bech32

/-! ## nsec -/

/-- C172: the call is the one of C01: what the caller sees. -/
theorem C172_out_view {f : OutFrame} {junk key : Bytes} {size : Nat} :
    (nsecOut true f junk key size).view = privkeyToBech32 key size := by
  unfold nsecOut privkeyToBech32 encode32 createChecksum
  split
  · rfl
  · simp only
    split
    · rfl
    · cases hrpExpand c!"nsec" 84 with
      | none => rfl
      | some e => rfl

/-- C172, the part that holds for writing a key: a buffer that is too small is refused before the key is touched.
Missing: every other call. -/
theorem C172_out_partial {room : Bool} {f : OutFrame} {junk key : Bytes} {size : Nat} (h : size < 64) :
    Clean [] [f.data, f.checksum] (nsecOut room f junk key size).left := by
  unfold nsecOut; rw [if_pos h]; exact .refl _

/-- C172 fails whenever a private key is written as text, and also when the call then reports that there is no memory: a
local buffer is left that holds the bits of the key, five in each byte. -/
theorem C172_out_refuted {room : Bool} {f : OutFrame} {junk key : Bytes} {size : Nat} (hk : key.length = 32) (hs : 64 ≤ size)
    (hf : f.data.length = 52) :
    ∃ b ∈ (nsecOut room f junk key size).left, flat 5 b = flat 8 key ++ List.replicate 4 false := by
  obtain ⟨h1, -, h3⟩ := conv_key hk
  refine ⟨convertBits key 52 8 5 true, ?_, h3⟩
  have ho : over 0 (convertBits key 52 8 5 true) f.data = convertBits key 52 8 5 true := over_all (by omega)
  have hne : convertBits key 52 8 5 true ≠ [] := fun h => by rw [h] at h1; simp at h1
  unfold nsecOut
  rw [if_neg (by omega)]
  simp only [ho, if_neg hne]
  split
  · simp
  · split <;> simp

/-- C172: what the caller sees when reading is that of C01. -/
theorem C172_in_view {f : InFrame} {junk junk' s : Bytes} (hf : f.decoded.length = 32) (hs : 11 ≤ s.length) :
    (nsecIn true f junk s).view = privkeyFromBech32 junk' s := by
  unfold nsecIn privkeyFromBech32 fixedFromBech32
  have hp : (c!"nsec" ++ c!"1" : Bytes) = c!"nsec1" := rfl
  rw [hp]
  by_cases h1 : s.take 5 ≠ c!"nsec1"
  · rw [if_pos h1, if_pos h1]
  · rw [if_neg h1, if_neg h1]
    simp only
    by_cases h2 : s.length > 90
    · rw [if_pos (.inr h2), if_pos (.inr h2)]
    · rw [if_neg (by omega), if_neg (by omega)]
      cases hr : readSyms 84 0 (s.drop 5) with
      | ub => rfl
      | err e => rfl
      | ok d =>
        obtain ⟨e, he⟩ := hrpExpand_some (pre := c!"nsec") (by decide)
        simp only [Res.bind_ok, verifyChecksum, he, Bool.true_eq_false, if_false]
        by_cases h3 : polymod (e ++ d) = 1#32
        · have hn : ¬ s.length < 11 := by omega
          simp only [h3, ne_eq, not_true_eq_false, if_false, beq_self_eq_true, if_true, if_neg hn]
          by_cases h4 : (convertBits (d.take (s.length - 5 - 6)) 32 5 8 false).length = 32
          · rw [if_neg (by simpa using h4), if_neg (by simpa using h4), over_all (by omega)]
            rw [List.take_of_length_le (by omega)]
          · rw [if_pos h4, if_pos h4]
        · have : (polymod (e ++ d) == 1#32) = false := by simpa using h3
          simp only [ne_eq, h3, not_false_eq_true, if_true, this]
          simp

/-- C172 fails whenever a private key is read from a text: the key itself is left in a local buffer. -/
theorem C172_in_refuted {room : Bool} {f : InFrame} {junk s key : Bytes} (hf : f.decoded.length = 32)
    (h : (nsecIn room f junk s).view = .ok key) : key ∈ (nsecIn room f junk s).left := by
  unfold nsecIn at h ⊢
  split at h
  · simp at h
  · rename_i h1
    rw [if_neg h1]
    split at h
    · simp at h
    · rename_i h2
      rw [if_neg h2]
      split at h
      · simp at h
      · simp at h
      · rename_i d hd
        simp only at h ⊢
        split at h
        · simp at h
        · rename_i e he
          split at h
          · simp at h
          · rename_i h3
            rw [if_neg h3]
            split at h
            · simp at h
            · rename_i h4
              rw [if_neg h4]
              split at h
              · simp at h
              · rename_i h5
                rw [if_neg h5]
                simp only [Res.ok.injEq] at h
                have hl : (convertBits (d.take (s.length - 5 - 6)) 32 5 8 false).length = 32 := by simpa using h5
                rw [over_all (by omega)] at h ⊢
                rw [List.take_of_length_le (by omega)] at h
                simp [h]

/-! ## Connections of a wallet -/

/-- **C172.** A connection that is released, by the application, at the end of a session or because something failed,
leaves its secret nowhere. -/
theorem C172_conn {k : ConnKeys} (h : k.secret.length = 32) : Clean [k.service] [k.service, k.secret] (connFree k).left :=
  ⟨.inl rfl, .inr (.inl (wipe_all (by omega))), trivial⟩

theorem cutEq_of {t name v : Bytes} (h : RelayProto.strchr 0x3d t = some (name, v)) : cutEq t = name ++ 0 :: v := by
  obtain ⟨rfl, hn⟩ := RelayProto.strchr_iff.1 h
  clear h
  induction name with
  | nil => rfl
  | cons c name ih =>
    simp only [List.mem_cons, not_or] at hn
    simp only [List.cons_append, cutEq, if_neg (Ne.symm hn.1), ih hn.2]

theorem spent_has : ∀ (ts : List Bytes) (t : Bytes), t ∈ ts → ∃ pre post, spent ts = pre ++ cutEq t ++ post := by
  intro ts
  induction ts with
  | nil => intro t h; simp at h
  | cons u ts ih =>
    intro t h
    cases ts with
    | nil => simp only [List.mem_singleton] at h; subst h; exact ⟨[], [], by simp [spent]⟩
    | cons v ts =>
      rcases List.mem_cons.1 h with rfl | h
      · exact ⟨[], _, by simp only [spent, List.nil_append]; rfl⟩
      · obtain ⟨pre, post, e⟩ := ih t h
        exact ⟨cutEq u ++ (if u = [] then 0x26 else 0) :: pre, post, by simp only [spent]; rw [e]; simp⟩

theorem secret_from {c c' : Nip47.Conn} {ts : List Bytes} (h : Nip47.params c ts = .ok c') {sk : Bytes} (hs : c'.secret = some sk) :
    c.secret = some sk ∨ ∃ t ∈ ts, ∃ name v, RelayProto.strchr 0x3d t = some (name, v) ∧ Nip47.hexDecode v 32 = some sk := by
  induction ts generalizing c with
  | nil => simp only [Nip47.params, Res.ok.injEq] at h; subst h; exact .inl hs
  | cons t ts ih =>
    unfold Nip47.params at h
    cases hp : Nip47.param c t with
    | ub => rw [hp] at h; cases h
    | err e => rw [hp] at h; cases h
    | ok c1 =>
      rw [hp, Res.bind_ok] at h
      rcases ih h with h1 | ⟨u, hu, n, v, h1, h2⟩
      · unfold Nip47.param at hp
        cases hc : RelayProto.strchr 0x3d t with
        | none => rw [hc] at hp; simp only [Res.ok.injEq] at hp; subst hp; exact .inl h1
        | some nv =>
          obtain ⟨n, v⟩ := nv
          rw [hc] at hp
          simp only at hp
          split at hp
          · simp only [Res.ok.injEq] at hp; subst hp; exact .inl h1
          · split at hp
            · split at hp
              · simp at hp
              · split at hp
                · simp at hp
                · rename_i b hb
                  simp only [Res.ok.injEq] at hp
                  subst hp
                  right
                  simp only [Option.some.injEq] at h1
                  subst h1
                  exact ⟨t, by simp, n, v, hc, hb⟩
            · split at hp
              · simp only [Res.ok.injEq] at hp; subst hp; exact .inl h1
              · simp only [Res.ok.injEq] at hp; subst hp; exact .inl h1
      · exact .inr ⟨u, by simp [hu], n, v, h1, h2⟩

/-- C172 fails whenever a connection text is read: the block with the copy of the parameters is released with the
hexadecimal text of the secret in it. -/
theorem C172_conn_refuted {uri : Bytes} {c : Nip47.Conn} (h : Nip47.parseUri uri = .ok c) :
    ∃ sk b pre v post, c.secret = some sk ∧ b ∈ (connIn uri).left ∧ b = pre ++ v ++ post ∧ Nip47.hexDecode v 32 = some sk := by
  have h0 := h
  unfold Nip47.parseUri at h
  split at h
  · simp at h
  · cases hq : RelayProto.strchr 0x3f (uri.drop Nip47.scheme.length) with
    | none => rw [hq] at h; simp at h
    | some kq =>
      obtain ⟨k, query⟩ := kq
      rw [hq] at h
      simp only at h
      split at h
      · simp at h
      · split at h
        · simp at h
        · rename_i key hkey
          cases hp : Nip47.params ⟨[], none, key, none⟩ (Nostr.Text.tokens 0x26 query) with
          | ub => rw [hp] at h; cases h
          | err e => rw [hp] at h; cases h
          | ok c1 =>
            rw [hp, Res.bind_ok] at h
            split at h
            · simp at h
            · rename_i hne
              simp only [Res.ok.injEq] at h
              subst h
              simp only [not_or] at hne
              obtain ⟨sk, hsk⟩ := Option.ne_none_iff_exists'.1 hne.1
              rcases secret_from hp hsk with h1 | ⟨t, ht, name, v, h1, h2⟩
              · simp at h1
              · have htm : t ∈ Nostr.Text.split 0x26 query := by
                  unfold Nostr.Text.tokens at ht
                  exact (List.mem_filter.1 ht).1
                obtain ⟨pre, post, e⟩ := spent_has _ t htm
                refine ⟨sk, spent (Nostr.Text.split 0x26 query), pre ++ name ++ [0], v, post, hsk, ?_, ?_, h2⟩
                · unfold connIn; rw [h0, hq]; simp only [List.mem_singleton]
                · rw [e, cutEq_of h1]; simp

/-! ## Addresses -/

/-- C172: an address that is released holds nothing any more, in particular no private key. -/
theorem C172_uri {data : Bytes} {size : Nat} (h : data.length = size) : (uriFree data size).left = [List.replicate size 0] := by
  simp only [uriFree]; rw [wipe_all (by omega), h]

/-- The hypotheses are met: a key is written and read; the buffers show it. -/
example : let key : Bytes := (List.range 32).map UInt8.ofNat; let w := nsecOut true ⟨List.replicate 52 7, List.replicate 6 7⟩ (List.replicate 67 7) key 64;
    w.view.isOk = true ∧ w.left[0]?.map (·.take 4) = some [0, 0, 0, 16] ∧
    (match w.view with
      | .ok s => decide ((nsecIn true ⟨List.replicate 84 7, List.replicate 32 7⟩ (List.replicate 67 7) s).view = .ok key)
      | _ => false) = true := by decide +kernel

/-- The hypotheses are met: a connection text. -/
example : (connIn (Nip47.scheme ++ c!"00000000000000000000000000000000000000000000000000000000000000ff?relay=wss://r&&secret=00000000000000000000000000000000000000000000000000000000000000aa&lud16=a@b")).left =
    [c!"relay" ++ [0] ++ c!"wss://r" ++ [0] ++ c!"&secret" ++ [0] ++ c!"00000000000000000000000000000000000000000000000000000000000000aa" ++ [0] ++ c!"lud16" ++ [0] ++ c!"a@b"] := by
  decide +kernel

end Nostr.Wipe.Text.Props
