import Verif.Model.Optimizer
import Verif.Spec.Costs
import Verif.Spec.ExtGraph
import Verif.Spec.Assignment

/-!
What the search for the best frequencies is compared with, in plain terms.
-/

namespace Sidermit

variable {K : Type} [Field K] [LinearOrder K]

/-- an acceptable result of the solver: it ended well, keeps the constraints up to 0.001 and has no negative frequency -/
structure Res.Valid (r : Res K) : Prop where
  ended : r.status ≠ 0 ∧ r.status ≠ 3
  ran : r.status ≠ -1
  kept : |r.viol| < 1 / 1000
  nonneg : ∀ f ∈ r.x, 0 ≤ f

/-- how far two vectors of frequencies are from each other: the sum of the differences of their components -/
def apart (x y : List K) : K := (List.zipWith (fun a b => |a - b|) x y).sum

/-- `Rounds make solve i o x rs`: starting with the optimizer `o`, the frequencies `x` and call `i` of the solver, `rs` are the
results of rounds of building an optimizer with the latest frequencies and solving it -/
inductive Rounds (make : Dict Str K → Py (Optimizer K)) (solve : Nat → Optimizer K → Py (Res K)) :
    Nat → Optimizer K → List K → List (Res K) → Prop
  | done (i o x) : Rounds make solve i o x []
  | round {i o x f o' r rs} : foptToF o.lines x = .ok f → make f = .ok o' → solve i o' = .ok r →
      Rounds make solve (i + 1) o' r.x rs → Rounds make solve i o x (r :: rs)

/-- the passengers in a vehicle of the line on its fullest section, 0 if it carries nobody -/
def fullest (load : Dict (LoadKey K) K) (id : Str) : K := ((load.filter fun p => decide (p.1.1 = id)).map Prod.snd).foldr max 0

/-- the time a vehicle of the line stands at stops in a cycle: `t` seconds for each passenger that boards or alights, or for the
larger number at each stop when both happen at the same time.  `S` is a list of the entries of the tables. -/
def standing (z v : Dict (LoadKey K) K) (S : List (LoadKey K)) (r : Route K) : K :=
  r.mode.t / 3600 * (if r.mode.bya = 0 then total z (fun k => k.1 = r.id) + total v (fun k => k.1 = r.id)
    else dwellMax z v r.id S)

/-- the time of a cycle of a line that drives through the nodes `A` and back through `B` -/
def cycleOf [PyMath K] (z v : Dict (LoadKey K) K) (S : List (LoadKey K)) (A B : Route K → List (Node K)) (r : Route K) : K :=
  (travelled (A r) + travelled (B r)) / r.mode.v + standing z v S r

/-- what the users' times are worth -/
def worth (pas : Passenger K) (u : Resources K) : K :=
  pas.spa * u.ta + pas.spw * u.te + pas.spv * (u.tv + pas.spt / 60 * u.t)

end Sidermit
