import Verif.Spec.Pajek
import Verif.Spec.RealMath

/-! Directions of the nodes as they are read from a file, over the real numbers. -/

namespace Sidermit

/-- the node with the direction that its coordinates give: 0 at the origin and for 360 degrees -/
noncomputable def turned (nd : Node ℝ) : Node ℝ :=
  { nd with angle := if nd.radius = 0 ∨ nd.angle = 360 then 0 else nd.angle }

end Sidermit
