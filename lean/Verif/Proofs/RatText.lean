import Verif.Spec.RatMath
import Verif.Spec.Demand
import Verif.Proofs.Text

/-! The printing of fractions used in the examples is lawful. -/

namespace Sidermit

theorem showNat_eq_showInt (n : Nat) : showNat n = showInt (n : Int) := rfl

theorem showInt_ne_slash (i : Int) (c : Char) (h : c ∈ showInt i) : c ≠ '/' := by
  rcases showInt_chars i c h with rfl | ⟨d, hd, rfl⟩
  · decide
  · intro h
    have : d = 0 ∨ d = 1 ∨ d = 2 ∨ d = 3 ∨ d = 4 ∨ d = 5 ∨ d = 6 ∨ d = 7 ∨ d = 8 ∨ d = 9 := by omega
    rcases this with rfl | rfl | rfl | rfl | rfl | rfl | rfl | rfl | rfl | rfl <;> revert h <;> decide

theorem ratText_printsWell (q : ℚ) : letI := ratText; PrintsWell q := by
  letI := ratText
  constructor
  · show (match splitOn '/' (showInt q.num ++ '/' :: showNat q.den) with
      | [a, b] => match pyInt a, pyInt b with
        | some x, some y => if 0 < y then some ((x : ℚ) / (y : ℚ)) else none
        | _, _ => none
      | [a] => (pyInt a).map fun x => (x : ℚ)
      | _ => none) = some q
    rw [showNat_eq_showInt, splitOn_append_sep _ (showInt_ne_slash _), splitOn_of_not_mem (showInt_ne_slash _)]
    simp only [pyInt_showInt]
    rw [if_pos (by exact_mod_cast q.den_pos)]
    congr 1
    exact_mod_cast Rat.num_div_den q
  · intro c hc
    have hc' : c ∈ showInt q.num ++ '/' :: showNat q.den := hc
    rw [showNat_eq_showInt, List.mem_append, List.mem_cons] at hc'
    rcases hc' with h | rfl | h
    · exact ⟨showInt_ne_comma _ _ h, showInt_not_space _ _ h⟩
    · decide
    · exact ⟨showInt_ne_comma _ _ h, showInt_not_space _ _ h⟩

end Sidermit
