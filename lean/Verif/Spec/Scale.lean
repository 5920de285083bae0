import Verif.Model.Optimizer

/-!
A demand with all its trips multiplied by a number.
-/

namespace Sidermit

variable {K : Type} [Field K]

/-- a table with all its values multiplied by a number -/
def times {α : Type} (c : K) (d : Dict α K) : Dict α K := d.map fun p => (p.1, c * p.2)

/-- a matrix with all its cells multiplied by a number -/
def timesMatrix (c : K) (m : Dict Int (Dict Int K)) : Dict Int (Dict Int K) := m.map fun r => (r.1, times c r.2)

/-- the demand with `c` times the trips of each pair -/
def Demand.times (c : K) (d : Demand K) : Demand K := ⟨d.graph, timesMatrix c d.matrix, c * d.total⟩

end Sidermit
