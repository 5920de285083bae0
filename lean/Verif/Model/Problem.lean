import Verif.Model.Optimizer

/-!
Model of the problem that `sidermit/optimization/optimizer.py` hands to the solver of scipy.
-/

namespace Sidermit

variable {K : Type}

/-- the arguments of `minimize`: the starting point, the function to minimise, the bounds of the variables, the function of the
constraints and the bounds of its values.  `⊥` and `⊤` are the infinities of numpy. -/
structure Problem (K : Type) where
  start : List K
  objective : List K → Py K
  low : List K
  up : List (WithTop K)
  constraint : List K → Py (List K)
  conLow : List (WithBot K)
  conUp : List K

variable [Field K] [LinearOrder K] [PyMath K]

/-- optimizer.py:247-271 `internal_optimization` up to the call of the solver, with `len_constrains` and `len_var` as the
constructor computes them, optimizer.py:76-77 -/
def Optimizer.problem (o : Optimizer K) : Py (Problem K) := do
  let c ← o.constrains o.fopt
  return { start := o.fopt, objective := o.vrc, low := List.replicate o.fopt.length 0, up := List.replicate o.fopt.length ⊤,
           constraint := o.constrains, conLow := List.replicate c.length ⊥, conUp := List.replicate c.length 0 }

end Sidermit
