import Verif.Spec.ExtGraph

/-!
The clock of the passengers and the clock of the vehicles.
-/

namespace Sidermit

variable {K : Type}

/-- the times that passengers of the `k`-th route `r` spend between each stop of a direction and the next one -/
structure RideTimes (x : ExtGraph K) (r : Route K) (k : Nat) (d : Dir) (ts : List K) : Prop where
  length : ts.length = (r.stopsOf d).length - 1
  each : ∀ i t, ts[i]? = some t → ∃ e ∈ x.edges, ∃ p n : RouteNode K, e.i = .route p ∧ e.j = .route n ∧ e.t = t ∧
    p.ridx = k ∧ n.ridx = k ∧ p.dir = d ∧ n.dir = d ∧ p.pos = i ∧ n.pos = i + 1

/-- the same for a circular route: the times to each stop after the first from the one before it on the ring -/
structure RingTimes (x : ExtGraph K) (r : Route K) (k : Nat) (d : Dir) (ts : List K) : Prop where
  length : ts.length = (r.stopsOf d).length - 1
  each : ∀ i t, ts[i]? = some t → ∃ e ∈ x.edges, ∃ p n : RouteNode K, e.i = .route p ∧ e.j = .route n ∧ e.t = t ∧
    p.ridx = k ∧ n.ridx = k ∧ p.dir = d ∧ n.dir = d ∧ n.pos = i + 1

/-- the length of the part of a way that does not follow the streets of the city -/
def offStreets [Field K] [PyMath K] (g : Graph K) (l : List (Node K)) : K :=
  ((pairs l).map fun p => if g.edgeExist p.1.id p.2.id then 0 else nodeDistance p.1 p.2).sum

end Sidermit
