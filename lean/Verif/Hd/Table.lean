import Verif.Hd.Model

/-! # Facts about the whole word list, by computation -/

namespace Nostr.Hd
open Nostr

/-- Each word is before the next. -/
def ascending : List Bytes → Bool
  | a :: b :: t => decide (strcmp a b < 0) && ascending (b :: t)
  | _ => true

theorem words_ascending : ascending words = true := by decide +kernel

theorem words_length : words.length = 2048 := by decide +kernel

def plainWord (w : Bytes) : Bool := decide (3 ≤ w.length) && decide (w.length ≤ 8) && w.all fun c => decide (97 ≤ c ∧ c ≤ 122)

theorem words_plain' : words.all plainWord = true := by decide +kernel

theorem words_plain {w : Bytes} (h : w ∈ words) : 3 ≤ w.length ∧ w.length ≤ 8 ∧ ∀ c ∈ w, 97 ≤ c ∧ c ≤ 122 := by
  have := List.all_eq_true.1 words_plain' w h
  simp only [plainWord, Bool.and_eq_true, decide_eq_true_eq, List.all_eq_true] at this
  exact ⟨this.1.1, this.1.2, this.2⟩

end Nostr.Hd
