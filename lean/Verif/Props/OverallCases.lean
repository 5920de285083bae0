import Verif.Props.Overall
import Verif.Props.ResultsCases

/-!
C61: concrete overall results.
-/

namespace Sidermit

section Examples

attribute [local instance] ratMath ratText

def runOverall (d : Demand ℚ) (net : Network ℚ) (x : List ℚ) : Py (Overall ℚ) :=
  (runLast d net x).2.1.overall (runLast d net x).1 (runLast d net x).2.2

/-- C61: the overall results of two lines of one mode -/
theorem overallFacts : runOverall busDemand fairNet [2, 3] = .ok ⟨217423/21600, 1441/225, 7/32, 37181/10800, 14213/360, 20, 38/5, 1/2,
    [({ demoMode with bya := 1 }, 2711/450)], [({ demoMode with bya := 1 }, 9/2)], [({ demoMode with bya := 1 }, 2)]⟩ := by
  decide +kernel

/-- C61: the hypotheses of the theorems are met there -/
example : LastRun (demoCity 3) busDemand demoFair fairNet (runLast busDemand fairNet [2, 3]).1
      (runLast busDemand fairNet [2, 3]).2.1 (runLast busDemand fairNet [2, 3]).2.2 ∧
    Layout (demoCity 3) fairNet 3 (fun r => demoWay r.nodesI) (fun r => demoWay r.nodesR) ∧ fairNet.modes.Nodup ∧
    busDemand.total ≠ 0 ∧ (runRows busDemand fairNet [2, 3]).toOption.isSome = true ∧
    ((runOpt busDemand fairNet).lastIteration (runRes [2, 3])).toOption.isSome = true :=
  ⟨fairRun, demoLayout (by decide +kernel) (by decide +kernel), by decide +kernel, by decide +kernel,
    by rw [fairFacts.2.1]; rfl, fairFacts.1⟩

/-- no trips at all -/
def noDemand : Demand ℚ := ⟨demoCity 3, [], 0⟩

/-- C61: without trips: the hypotheses of `C61_no_trips` and what it says -/
example : ((runOpt noDemand twoNet).lastIteration (runRes [2, 0])).toOption.isSome = true ∧
    Layout (demoCity 3) twoNet 3 (fun r => demoWay r.nodesI) (fun r => demoWay r.nodesR) ∧
    runOverall noDemand twoNet [2, 0] = .error .ZeroDivisionError :=
  ⟨by decide +kernel, demoLayout (by decide +kernel) (by decide +kernel), by decide +kernel⟩

/-- C61: before a solution has been found there are no overall results -/
theorem C61_no_solution (o : Optimizer ℚ) : o.overallResults none = .error .NoOptimalSolutionFound := rfl

end Examples

end Sidermit
