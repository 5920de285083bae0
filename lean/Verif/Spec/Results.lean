import Verif.Model.Results
import Verif.Spec.Optimizer
import Verif.Spec.ExtGraph
import Verif.Spec.Assignment

/-!
What the tables of results are compared with.
-/

namespace Sidermit

variable {K : Type}

/-- a line that is not circular, passes no node twice in a direction and meets its stops in their order -/
structure Route.InOrder (r : Route K) : Prop where
  type : r.type ≠ .circular
  nodes : ∀ d, (r.nodesOf d).Nodup
  order : ∀ d, (r.stopsOf d).Sublist (r.nodesOf d)

/-- the stop that a vehicle has passed last when it leaves the node number `i` -/
def lastStopBy (stops nodes : List Int) (i : Nat) : Option Int :=
  ((nodes.take (i + 1)).filter fun a => decide (a ∈ stops)).getLast?

/-- a circular line in direction `D`: it comes back to its first node, passes the others once, and has nothing in the other direction -/
structure Route.Ring (r : Route K) (D : Dir) (a : Int) (rest : List Int) : Prop where
  type : r.type = .circular
  nodes : r.nodesOf D = a :: rest
  closed : rest.getLast? = some a
  once : rest.Nodup
  other : ∀ D', D' ≠ D → r.nodesOf D' = [] ∧ r.stopsOf D' = []
  stops : ∀ s ∈ r.stopsOf D, s ∈ rest

/-- the rows of a direction -/
def Row.table (x : Row K) : Dir → List (Int × Int × K)
  | .I => x.tableI
  | .R => x.tableR

/-- somebody rides between the stop at the node and the next one -/
def RidesFrom (load : Dict (LoadKey K) K) (id : Str) (dir : Dir) (node : Int) : Prop :=
  ∃ s : StopNode K, (id, dir, s) ∈ Dict.keys load ∧ s.city.node.id = node

/-- the tables show where passengers leave the line: it lets them board and alight at the same time, or somebody boards at every
stop but the last where somebody alights -/
def Route.Shown [Field K] [LinearOrder K] (g : Graph K) (routes : List (Route K)) (t : Loads K) (r : Route K) : Prop :=
  r.mode.bya = 1 ∨ ∀ n : RouteNode K, n.Wanted g routes → n.route = r → n.CanBoard → t.z.getD n.key 0 = 0 → t.v.getD n.key 0 = 0

/-- the demand, the city and the passenger make sense: no cell of the matrix is negative, streets have a width, and walking
costs something -/
structure Sensible [Field K] [LinearOrder K] (g : Graph K) (d : Demand K) (pas : Passenger K) : Prop where
  demand : ∀ p ∈ d.matrix, ∀ q ∈ p.2, 0 ≤ q.2
  width : ∀ p, g.p = some p → 0 < p
  walk : 0 < pas.pa

/-- the lines of a mode that run -/
def runningOf [Field K] [LinearOrder K] (f : Dict Str K) (m : Mode K) (rs : List (Route K)) : List (Route K) :=
  rs.filter fun r => decide (r.mode = m ∧ 0 < f.getD r.id 0)

end Sidermit
