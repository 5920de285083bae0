import Verif.Model.Graph
import Mathlib.Analysis.SpecialFunctions.Trigonometric.Inverse
import Mathlib.Analysis.SpecialFunctions.Sqrt

/-! The mathematical functions of the code read over the real numbers. -/

namespace Sidermit

noncomputable instance realMath : PyMath ℝ where
  sqrt := Real.sqrt
  cosDeg a := Real.cos (a * Real.pi / 180)
  sinDeg a := Real.sin (a * Real.pi / 180)
  acosDeg c := Real.arccos c * 180 / Real.pi

end Sidermit
