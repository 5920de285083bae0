import Verif.Model.ExtGraph
import Verif.Spec.City
import Mathlib.Algebra.BigOperators.Group.List.Basic

/-!
What the extended graph is expected to contain.
-/

namespace Sidermit

variable {K : Type}

/-- the stop at position `i` of direction `d` is node `id`, and it has a route node: in circular routes the first position,
which repeats the last one, has none -/
def Route.NodeAt (r : Route K) (d : Dir) (i : Nat) (id : Int) : Prop :=
  (r.stopsOf d)[i]? = some id ∧ (r.type = .circular → i ≠ 0)

/-- `c` stands for the `c.idx`-th node of the city -/
def CityNode.In (c : CityNode K) (g : Graph K) : Prop := g.nodes[c.idx]? = some c.node

/-- the stop nodes wanted: a mode and a node of the city where a route of the mode stops -/
def StopNode.Wanted (g : Graph K) (routes : List (Route K)) (s : StopNode K) : Prop :=
  s.city.In g ∧ ∃ r ∈ routes, r.mode = s.mode ∧ ∃ d i, r.NodeAt d i s.city.node.id

/-- the route nodes wanted: a route, a direction and a stop of it -/
def RouteNode.Wanted (g : Graph K) (routes : List (Route K)) (n : RouteNode K) : Prop :=
  routes[n.ridx]? = some n.route ∧ n.route.NodeAt n.dir n.pos n.stop.city.node.id ∧
    n.stop.mode = n.route.mode ∧ n.stop.city.In g

/-- the position of the stop before position `i` in the direction of travel -/
def Route.stopBefore (r : Route K) (d : Dir) (i : Nat) : Option Nat :=
  if r.type = .circular then some (if i = 1 then (r.stopsOf d).length - 1 else i - 1)
  else if i = 0 then none else some (i - 1)

/-- `p` is the route node before `n` on the same route and direction -/
def RouteNode.Precedes (p n : RouteNode K) : Prop :=
  p.ridx = n.ridx ∧ p.dir = n.dir ∧ n.route.stopBefore n.dir n.pos = some p.pos

/-- the last stop of a direction has no boarding -/
def RouteNode.CanBoard (n : RouteNode K) : Prop :=
  n.route.type = .circular ∨ (n.route.nodesOf n.dir).getLast? ≠ some n.stop.city.node.id

/-- the first stop of a direction has no alighting -/
def RouteNode.CanAlight (n : RouteNode K) : Prop :=
  n.route.type = .circular ∨ (n.route.nodesOf n.dir).head? ≠ some n.stop.city.node.id

/-- what the construction needs: every stop is a node of the city, two-way routes have node sequences, and the numbers of
parallel lines and the speeds are not zero -/
structure Route.Fits [Field K] (g : Graph K) (r : Route K) : Prop where
  stops : ∀ d i id, r.NodeAt d i id → ∃ c ∈ g.nodes, c.id = id
  nodes : r.type ≠ .circular → ∀ d i id, r.NodeAt d i id → r.nodesOf d ≠ []
  lines : (r.mode.d : K) ≠ 0
  speed : r.mode.v ≠ 0

/-- some route stops at the node -/
def Served (g : Graph K) (routes : List (Route K)) (n : Node K) : Prop := ∃ s : StopNode K, s.Wanted g routes ∧ s.city.node = n

/-- length of the way through the given nodes -/
def travelled [Field K] [PyMath K] (l : List (Node K)) : K := ((pairs l).map fun p => nodeDistance p.1 p.2).sum

end Sidermit
