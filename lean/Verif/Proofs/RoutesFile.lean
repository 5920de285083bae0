import Verif.Spec.RoutesFile
import Verif.Proofs.Network

/-! Lemmas about the text of the table of routes. -/

set_option linter.unusedSectionVars false

namespace Sidermit

variable {K : Type}

theorem read_plain (row : List Str) (t : Str) : ∀ (u cell : Str), u.any csvSpecial = false →
    readTable .plain cell row (u ++ t) = readTable .plain (cell ++ u) row t
  | [], cell, _ => by simp
  | c :: u, cell, h => by
    simp only [List.any_cons, Bool.or_eq_false_iff, csvSpecial, beq_eq_false_iff_ne] at h
    rw [List.cons_append, readTable, if_neg h.1.1.1, if_neg h.1.2, read_plain row t u _ (by simpa [csvSpecial] using h.2)]
    simp

theorem read_quoted (row : List Str) (t : Str) : ∀ (u cell : Str),
    readTable .quoted cell row (csvEscape u ++ '"' :: t) = readTable .closing (cell ++ u) row t
  | [], cell => by simp [csvEscape, readTable]
  | c :: u, cell => by
    by_cases hc : c = '"'
    · subst hc
      rw [csvEscape, if_pos rfl, List.cons_append, List.cons_append, readTable, if_pos rfl, readTable, if_pos rfl,
        read_quoted row t u]
      simp
    · rw [csvEscape, if_neg hc, List.cons_append, readTable, if_neg hc, read_quoted row t u]
      simp

/-- a printed cell is read back -/
theorem read_cell (row : List Str) (s t : Str) :
    readTable .start [] row (csvCell s ++ ';' :: t) = readTable .start [] (row ++ [s]) t ∧
    readTable .start [] row (csvCell s ++ '\n' :: t) =
      (readTable .start [] [] t).map (fun rows => (row ++ [s]) :: rows) := by
  unfold csvCell
  by_cases h : s.any csvSpecial = true
  · rw [if_pos h]
    simp only [List.cons_append, List.append_assoc, List.nil_append]
    constructor
    · rw [readTable, if_pos rfl, read_quoted]
      simp [readTable]
    · rw [readTable, if_pos rfl, read_quoted]
      simp [readTable]
  · rw [if_neg h]
    cases s with
    | nil => constructor <;> simp [readTable]
    | cons c u =>
      have h' : (c :: u).any csvSpecial = false := by simpa using h
      have h2 := h'
      simp only [List.any_cons, Bool.or_eq_false_iff, csvSpecial, beq_eq_false_iff_ne] at h2
      have hu : u.any csvSpecial = false := by simpa [csvSpecial] using h2.2
      constructor
      · rw [List.cons_append, readTable, if_neg h2.1.1.2, if_neg h2.1.1.1, if_neg h2.1.2, read_plain _ _ _ _ hu]
        simp [readTable]
      · rw [List.cons_append, readTable, if_neg h2.1.1.2, if_neg h2.1.1.1, if_neg h2.1.2, read_plain _ _ _ _ hu]
        simp [readTable]

/-- a printed row is read back -/
theorem read_row (t : Str) : ∀ (cells row : List Str), cells ≠ [] →
    readTable .start [] row (csvRow cells ++ t) = (readTable .start [] [] t).map (fun rows => (row ++ cells) :: rows)
  | [], _, h => absurd rfl h
  | [a], row, _ => by
    have := (read_cell row a t).2
    simpa [csvRow, joinWith] using this
  | a :: b :: l, row, _ => by
    have h1 := (read_cell row a (csvRow (b :: l) ++ t)).1
    have h2 := read_row t (b :: l) (row ++ [a]) (by simp)
    rw [h2] at h1
    have e : csvRow (a :: b :: l) ++ t = csvCell a ++ ';' :: (csvRow (b :: l) ++ t) := by
      simp [csvRow, joinWith]
    rw [e, h1]
    simp

theorem read_rows : ∀ (rows : List (List Str)), (∀ r ∈ rows, r ≠ []) → rowsOfText (rows.map csvRow).flatten = some rows
  | [], _ => by simp [rowsOfText, readTable]
  | r :: t, h => by
    have ih := read_rows t (fun r hr => h r (List.mem_cons_of_mem _ hr))
    unfold rowsOfText at ih ⊢
    rw [List.map_cons, List.flatten_cons, read_row _ _ _ (h r List.mem_cons_self), ih]
    simp

end Sidermit
