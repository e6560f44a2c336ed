import Verif.Json.Lemmas

/-! # Printed JSON is a C string -/

namespace Nostr.Json
open Nostr

theorem cstr_app {a b : Bytes} (ha : CStr a) (hb : CStr b) : CStr (a ++ b) := by
  unfold CStr at *
  simp [ha, hb]

theorem cstr_cons {c : UInt8} {b : Bytes} (hc : c ≠ 0) (hb : CStr b) : CStr (c :: b) := by
  unfold CStr at *
  simp only [List.mem_cons, not_or]
  exact ⟨fun h => hc h.symm, hb⟩

theorem escChar_noNul_table : ∀ n < 256, n ≠ 0 → (0 : UInt8) ∉ escChar (UInt8.ofNat n) := by decide +kernel

theorem escape_cstr {s : Bytes} (h : CStr s) : CStr (escape s) := by
  unfold CStr escape at *
  intro h0
  obtain ⟨c, hc, h1⟩ := List.mem_flatMap.1 h0
  have hne : c.toNat ≠ 0 := by
    intro e
    have : c = 0 := UInt8.toNat_inj.1 (by simpa using e)
    exact h (this ▸ hc)
  have := escChar_noNul_table c.toNat c.toNat_lt hne
  rw [UInt8.ofNat_toNat] at this
  exact this h1

theorem quoted_cstr {s : Bytes} (h : CStr s) : CStr (quoted s) :=
  cstr_app (cstr_cons (by decide) (escape_cstr h)) (by decide)

theorem tabs_cstr (n : Nat) : CStr (tabs n) := by
  unfold CStr tabs
  simp

mutual
/-- A tree of C strings and number texts prints as a C string. -/
theorem print_cstr (fmt : Bool) : ∀ (d : Nat) (j : Json), Good j → CStr (print fmt d j)
  | _, .null, _ => by simp only [print]; decide
  | _, .tru, _ => by simp only [print]; decide
  | _, .fls, _ => by simp only [print]; decide
  | _, .num t, h => by
      simp only [Good] at h
      simp only [print]
      intro h0
      exact absurd (h.chars 0 h0) (by decide)
  | _, .str s, h => by
      simp only [Good] at h
      simp only [print]
      exact quoted_cstr h
  | d, .arr l, h => by
      simp only [Good] at h
      simp only [print]
      exact cstr_app (cstr_cons (by decide) (elems_cstr fmt d l h)) (by decide)
  | d, .obj m, h => by
      simp only [Good] at h
      simp only [print]
      refine cstr_app (cstr_app (cstr_app (cstr_cons (by decide) ?_) (members_cstr fmt (d + 1) m h)) ?_) (by decide)
      · cases fmt <;> decide
      · cases fmt
        · exact (by decide : CStr [])
        · exact tabs_cstr d
theorem elems_cstr (fmt : Bool) : ∀ (d : Nat) (l : List Json), GoodL l → CStr (printElems fmt d l)
  | _, [], _ => by simp only [printElems]; decide
  | d, j :: l, h => by
      simp only [GoodL] at h
      have ih := elems_cstr fmt d l h.2
      rw [printElems.eq_def]
      simp only
      refine cstr_app (print_cstr fmt (d + 1) j h.1) ?_
      cases l with
      | nil => exact (by decide : CStr [])
      | cons k l =>
        simp only
        exact cstr_app (cstr_cons (by decide) (by cases fmt <;> decide)) ih
theorem members_cstr (fmt : Bool) : ∀ (d : Nat) (m : List (Bytes × Json)), GoodM m → CStr (printMembers fmt d m)
  | _, [], _ => by simp only [printMembers]; decide
  | d, (k, j) :: m, h => by
      simp only [GoodM] at h
      have ih := members_cstr fmt d m h.2.2
      rw [printMembers.eq_def]
      simp only
      refine cstr_app (cstr_app (cstr_app (cstr_app (cstr_app (cstr_app ?_ (quoted_cstr h.1)) (cstr_cons (by decide) ?_))
        (print_cstr fmt d j h.2.1)) ?_) ?_) ih
      · cases fmt
        · exact (by decide : CStr [])
        · exact tabs_cstr d
      · cases fmt <;> decide
      · cases m
        · exact (by decide : CStr [])
        · exact (by decide : CStr [0x2c])
      · cases fmt <;> decide
end

end Nostr.Json
