import Verif.Model.Graph
import Mathlib.Algebra.Order.Ring.Rat

/-!
A computable stand-in for `PyMath` on the rationals, exact on squares of small rationals and on multiples of 90 degrees.
It is used only to run the model in concrete examples; no theorem is about it.
-/

namespace Sidermit

def natSqrt : Nat → Nat
  | 0 => 0
  | n + 1 => ((List.range (n + 2)).find? fun k => decide (n + 1 ≤ k * k)).getD 0

@[reducible] def ratMath : PyMath ℚ where
  sqrt q := (natSqrt q.num.toNat : ℚ) / (natSqrt q.den : ℚ)
  cosDeg a := if a = 0 ∨ a = 360 then 1 else if a = 180 then -1 else 0
  sinDeg a := if a = 90 then 1 else if a = 270 then -1 else 0
  acosDeg c := if c = 1 then 0 else if c = -1 then 180 else 90

/-- numbers printed as `num/den`; integers are read too -/
@[reducible] def ratText : NumText ℚ where
  fmt q := showInt q.num ++ '/' :: showNat q.den
  parse s := match splitOn '/' s with
    | [a, b] => match pyInt a, pyInt b with
      | some x, some y => if 0 < y then some ((x : ℚ) / (y : ℚ)) else none
      | _, _ => none
    | [a] => (pyInt a).map fun x => (x : ℚ)
    | _ => none

end Sidermit
