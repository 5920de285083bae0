import Verif.Model.Network
import Verif.Spec.City

/-!
Specification of routes and transport networks.
-/

namespace Sidermit

variable {K : Type}

/-- **A well formed custom route** (docstrings of network.py:77-190): both directions have nodes, without loops, and form
a cycle; in each direction the stops are nodes of the route, the first and the last node being stops. -/
structure CustomOk (nodesI nodesR stopsI stopsR : List Int) : Prop where
  nonemptyI : nodesI ≠ []
  nonemptyR : nodesR ≠ []
  cycle_start : nodesI.head? = nodesR.getLast?
  cycle_end : nodesR.head? = nodesI.getLast?
  stopsI_on : ∀ s ∈ stopsI, s ∈ nodesI
  stopsR_on : ∀ s ∈ stopsR, s ∈ nodesR
  firstI : stopsI.head? = nodesI.head?
  lastI : stopsI.getLast? = nodesI.getLast?
  firstR : stopsR.head? = nodesR.head?
  lastR : stopsR.getLast? = nodesR.getLast?
  noloopI : nodesI.Nodup
  noloopR : nodesR.Nodup

/-- every two consecutive nodes are joined by an edge of the city -/
def OnStreets (g : Graph K) (nodes : List Int) : Prop := ∀ p ∈ pairs nodes, g.edgeExist p.1 p.2 = true

/-- the calls on a network -/
inductive NetCall (K : Type)
  | addRoute (r : Route K)
  | removeRoute (id : Str)
  | addMode (m : Mode K)
  | removeMode (m : Mode K)

/-- the network after a call, and the exception raised, if any -/
def NetCall.run [DecidableEq K] (s : Network K) : NetCall K → Network K × Option PyErr
  | .addRoute r => s.addRoute r
  | .removeRoute id => s.removeRoute id
  | .addMode m => s.addTransportMode m
  | .removeMode m => s.removeTransportMode m

/-- the networks over `g` that a user can have in hands: any history of calls, whether they raise or not -/
inductive Network.Reachable [DecidableEq K] (g : Graph K) : Network K → Prop
  | init : Network.Reachable g (Network.init g)
  | call {s : Network K} (h : Network.Reachable g s) (c : NetCall K) : Network.Reachable g (c.run s).1

/-- a set of modes that the assignment step can handle -/
def ModesOk (modes : List (Mode K)) : Prop :=
  modes.length ≤ 1 ∨ ∃ m m', modes = [m, m'] ∧ m.name ≠ m'.name ∧ (m.d = 1 ∨ m'.d = 1)

/-- what removing mode `m` leaves of a list of routes: a route of mode `m` goes, and the route after it stays whatever its
mode is -/
def survivors [DecidableEq K] (m : Mode K) : List (Route K) → List (Route K)
  | [] => []
  | [r] => if r.mode = m then [] else [r]
  | r :: r' :: t => if r.mode = m then r' :: survivors m t else r :: survivors m (r' :: t)

/-- adding routes one after the other, stopping at the first exception -/
def addAllRoutes [DecidableEq K] : Network K → List (Route K) → Py (Network K)
  | s, [] => .ok s
  | s, r :: t => match s.addRoute r with
    | (s', none) => addAllRoutes s' t
    | (_, some e) => .error e

/-- id of the node at position `j` of the node list -/
def idAt (g : Graph K) (j : Nat) : Int := ((g.nodes[j]?).map Node.id).getD 0

/-- ids of the CBD, and of the periphery and the subcentre of zone number `i + 1` -/
def cbdOf (g : Graph K) : Int := idAt g 0
def perOf (g : Graph K) (i : Nat) : Int := idAt g (2 * i + 1)
def subOf (g : Graph K) (i : Nat) : Int := idAt g (2 * i + 2)

/-- **A well formed two-way predefined route**: accepted by the validation of custom routes, running on existing streets in
both directions, with an inbound direction that is the outbound one reversed, and stops in travel order. -/
structure TwoWay (g : Graph K) (r : Route K) : Prop where
  valid : CustomOk r.nodesI r.nodesR r.stopsI r.stopsR
  streetsI : OnStreets g r.nodesI
  streetsR : OnStreets g r.nodesR
  reversed : r.nodesR = r.nodesI.reverse
  stops_reversed : r.stopsR = r.stopsI.reverse
  stops_in_order : r.stopsI.Sublist r.nodesI

/-- **A family of predefined routes** of mode `m`: `k` routes, the `i`-th with the given id, outbound nodes and outbound
stops, all well formed, with pairwise different ids, and which a network without routes accepts one after the other. -/
structure RouteFamily [DecidableEq K] (g : Graph K) (m : Mode K) (k : Nat) (name : Nat → Str) (nodes stops : Nat → List Int)
    (rs : List (Route K)) : Prop where
  count : rs.length = k
  each : ∀ i, i < k → ∃ r, rs[i]? = some r ∧ r.id = name i ∧ r.mode = m ∧ r.type = .predefined ∧
    r.nodesI = nodes i ∧ r.stopsI = stops i ∧ TwoWay g r
  distinct : (rs.map Route.id).Nodup
  accepted : addAllRoutes (Network.init g) rs = .ok ⟨g, rs, rs.map Route.id, if rs = [] then [] else [m]⟩

/-- `PREFIX_mode_zone` -/
def routeLabel (pre name : Str) (i : Nat) : Str := pre ++ "_".toList ++ name ++ "_".toList ++ showInt ((i : Int) + 1)

/-- the subcentres met when following the ring from zone `i` (counted from 0) through `jump` steps -/
def ringFrom (g : Graph K) (n i jump : Nat) : List Int := (List.range (jump + 1)).map fun k => subOf g ((i + k) % n)

/-- number of routes joining the zones at distance `jump` -/
def pairsAt (n jump : Nat) : Nat := if 2 * jump = n then jump else n

end Sidermit
