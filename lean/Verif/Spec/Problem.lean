import Verif.Model.Problem
import Verif.Spec.Assignment

/-!
Which points a problem with bounds and constraints allows.
-/

namespace Sidermit

variable {K : Type} [Field K] [LinearOrder K]

/-- the point has one value per variable, each within its bounds; the constraints can be evaluated there, and give one value
per bound, each within its bounds -/
structure Problem.Allows (p : Problem K) (y : List K) : Prop where
  low : List.Forall₂ (fun b c => b ≤ c) p.low y
  up : List.Forall₂ (fun (b : WithTop K) (c : K) => (c : WithTop K) ≤ b) p.up y
  constraints : ∃ v, p.constraint y = .ok v ∧ List.Forall₂ (fun (b : WithBot K) (c : K) => b ≤ (c : WithBot K)) p.conLow v ∧
    List.Forall₂ (fun b c => c ≤ b) p.conUp v

end Sidermit
