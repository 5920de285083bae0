import Verif.Spec.Optimizer

/-!
What a truthful result of the solver says.
-/

namespace Sidermit

variable {K : Type} [Field K] [LinearOrder K] [PyMath K]

/-- the result of an internal optimisation has one frequency per line, none negative; its objective is the value of the objective
there, and no constraint is violated by more than it says -/
structure Res.Honest (o : Optimizer K) (r : Res K) : Prop where
  length : r.x.length = o.fopt.length
  nonneg : ∀ c ∈ r.x, 0 ≤ c
  value : ∃ c, o.vrc r.x = .ok c ∧ r.fn = (c : WithTop K)
  kept : ∃ v, o.constrains r.x = .ok v ∧ ∀ c ∈ v, c ≤ r.viol

/-- the optimizer works with the frequencies `f`, or with those of an earlier result of the solver -/
def FromRound (net : Network K) (solve : Nat → Optimizer K → Py (Res K)) (f f' : Option (Dict Str K)) : Prop :=
  f' = f ∨ ∃ i o s fr, solve i o = .ok s ∧ f' = some fr ∧ Dict.keys fr = net.routes.map Route.id ∧
    ∀ (i : Nat) (r : Route K), net.routes[i]? = some r → fr.get? r.id = s.x[i]?

end Sidermit
