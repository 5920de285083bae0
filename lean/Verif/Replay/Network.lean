import Verif.Replay.City
import Verif.Model.RoutesFile
import Verif.Model.ExtGraph

/-!
The tests of the repository played on the model: tests/test_transport_network.py and test_extended_graph.py.
-/

namespace Sidermit.Replay

attribute [local instance] testMath ratText

/-- the default bus and metro -/
def busMetro : Py (Mode ℚ × Mode ℚ) := do
  let l ← defaultModes 0
  return (← pyGet l 0, ← pyGet l 1)

/-- `network.add_route(route)` for each route -/
def addRoutes (s : Network ℚ) : List (Route ℚ) → Py (Network ℚ)
  | [] => .ok s
  | r :: l => match s.addRoute r with
    | (t, none) => addRoutes t l
    | (_, some e) => .error e

/-- `Route(id, mode, nodes_i, nodes_r, stops_i, stops_r)` -/
def custom (id : String) (m : Mode ℚ) (ni nr si sr : String) : Py (Route ℚ) :=
  mkRoute (some id.toList) m (some ni.toList) (some nr.toList) (some si.toList) (some sr.toList)

def busRoute (id ni nr si sr : String) : Py (Route ℚ) := do custom id (← busMetro).1 ni nr si sr

/-- the city of the tests -/
def five : Py (Graph ℚ) := city 5 1000 (1 / 2) 2

/-! ### test_transport_network.py -/

/-- a route whose id is `None` -/
def unnamed : Py (Route ℚ) := do
  let m ← busMetro
  mkRoute none m.1 (some "1,2,0,4,3".toList) (some "3,4,0,2,1".toList) (some "1,0,3".toList) (some "3,0,1".toList)

/-- test_routes, test_raises_routes_exceptions -/
example : holds (busRoute "r1" "1,2,0,4,3" "3,4,0,2,1" "1,0,3" "3,0,1") (fun r => r.stopsI = [1, 0, 3])
    ∧ raises unnamed .RouteIdIsNotValid
    ∧ raises (busRoute "r1" "1,2,0,4,3" "3,4,0,2,1" "1,5,3" "3,0,1") .StopsSequences
    ∧ raises (busRoute "r1" "1,2,0,4,3" "3,4,0,2,1" "2,0,3" "3,0,1") .FirstStopIsNotValid
    ∧ raises (busRoute "r1" "1,2,0,4,3" "3,4,0,2,1" "1,0,2" "3,0,1") .LastStopIsNotValid
    ∧ raises (busRoute "r1" "1,2,0,4,3" "4,0,2,1" "1,0,3" "4,0,1") .NotCycle := by decide +kernel

def oneRoute : Py (Network ℚ) := do
  addRoutes (Network.init (← five)) [← busRoute "r1" "1,2,0,4,3" "3,4,0,2,1" "1,0,3" "3,0,1"]

/-- test_add_route_transport_network -/
example : holds oneRoute (fun s => s.routes.length = 1) ∧ holds (do (← oneRoute).getRoute "r1".toList) (fun r => r.id = "r1".toList)
    ∧ raises (do addRoutes (← oneRoute) [← busRoute "r2" "1,3,0,4,3" "3,4,0,2,1" "1,0,3" "3,0,1"]) .NodeSequencesIsNotValid
    ∧ raises (do addRoutes (← oneRoute) [← busRoute "r1" "1,2,0,4,3" "3,4,0,2,1" "1,0,3" "3,0,1"]) .RouteIdDuplicated := by
  decide +kernel

/-- a network after `remove_route(id)` -/
def removed (s : Network ℚ) (id : String) : Py (Network ℚ) :=
  match s.removeRoute id.toList with
  | (t, none) => .ok t
  | (_, some e) => .error e

/-- test_remove_route_transport_network, test_raises_get_route_exceptions -/
example : holds (do removed (← oneRoute) "r1") (fun s => s.routes.length = 0)
    ∧ raises (do removed (← removed (← oneRoute) "r1") "r1") .RouteIdNotFound
    ∧ raises (do (Network.init (← five)).getRoute "r1".toList) .RouteIdNotFound := by decide +kernel

/-- test_network_to_file: the text of tests/file/transport_network/write1_test.csv -/
example : holds (do addRoutes (← oneRoute) [← custom "r2" (← busMetro).2 "1,2,0,4,3" "3,4,0,2,1" "1,0,3" "3,0,1"])
    (fun s => s.routesFile = lines
      ["route_id;mode;nodes_sequence_i;nodes_sequence_r;stops_sequence_i;stops_sequence_r",
       "r1;bus;1,2,0,4,3;3,4,0,2,1;1,0,3;3,0,1", "r2;metro;1,2,0,4,3;3,4,0,2,1;1,0,3;3,0,1", ""]) := by decide +kernel

/-- the four sequences of a route -/
def seqs (r : Route ℚ) : List (List Int) := [r.nodesI, r.nodesR, r.stopsI, r.stopsR]

/-- the number of routes and the sequences of the first, second and last -/
def shape (l : Py (List (Route ℚ))) : Option (Nat × List (List (List Int))) :=
  l.toOption.map fun l => (l.length, [l[0]?, l[1]?, l[l.length - 1]?].map fun r => (r.map seqs).getD [])

def inFive (f : Network ℚ → Mode ℚ → Py (List (Route ℚ))) : Py (List (Route ℚ)) := do
  f (Network.init (← five)) (← busMetro).1

/-- test_get_feeder_routes -/
example : (shape (inFive fun s m => s.feederRoutes m)).map (fun p => (p.1, p.2.take 2)) =
    some (5, [[[1, 2], [2, 1], [1, 2], [2, 1]], [[3, 4], [4, 3], [3, 4], [4, 3]]]) := by decide +kernel

/-- test_get_circular_routes -/
example : (shape (inFive fun s m => s.circularRoutes m)).map (fun p => (p.1, p.2.take 2)) =
      some (2, [[[2, 4, 6, 8, 10, 2], [], [2, 4, 6, 8, 10, 2], []], [[], [10, 8, 6, 4, 2, 10], [], [10, 8, 6, 4, 2, 10]]])
    ∧ raises (do (Network.init (← city 1 1000 (1 / 2) 2)).circularRoutes (← busMetro).1) .CircularRouteIsNotValid := by
  decide +kernel

/-- test_get_radial_routes -/
example : (shape (inFive fun s m => s.radialRoutes m false false)).map (fun p => (p.1, p.2.take 2)) =
      some (5, [[[1, 2, 0], [0, 2, 1], [1, 2, 0], [0, 2, 1]], [[3, 4, 0], [0, 4, 3], [3, 4, 0], [0, 4, 3]]]) := by decide +kernel
example : (shape (inFive fun s m => s.radialRoutes m true false)).map (fun p => (p.1, p.2.take 2)) =
      some (5, [[[2, 0], [0, 2], [2, 0], [0, 2]], [[4, 0], [0, 4], [4, 0], [0, 4]]]) := by decide +kernel
example : (shape (inFive fun s m => s.radialRoutes m false true)).map (fun p => (p.1, p.2.take 2)) =
      some (5, [[[1, 2, 0], [0, 2, 1], [1, 0], [0, 1]], [[3, 4, 0], [0, 4, 3], [3, 0], [0, 3]]]) := by decide +kernel
example : (shape (inFive fun s m => s.radialRoutes m true true)).map (fun p => (p.1, p.2.take 2)) =
      some (5, [[[2, 0], [0, 2], [2, 0], [0, 2]], [[4, 0], [0, 4], [4, 0], [0, 4]]]) := by decide +kernel

/-- first and last routes -/
def ends (l : Py (List (Route ℚ))) : Option (Nat × List (List (List Int))) :=
  (shape l).map fun p => (p.1, p.2.eraseIdx 1)

/-- test_get_diametral_routes -/
example : ends (inFive fun s m => s.diametralRoutes m 2 false false) =
      some (5, [[[1, 2, 0, 6, 5], [5, 6, 0, 2, 1], [1, 2, 0, 6, 5], [5, 6, 0, 2, 1]],
        [[9, 10, 0, 4, 3], [3, 4, 0, 10, 9], [9, 10, 0, 4, 3], [3, 4, 0, 10, 9]]]) := by decide +kernel
example : ends (inFive fun s m => s.diametralRoutes m 2 true false) =
      some (5, [[[2, 0, 6], [6, 0, 2], [2, 0, 6], [6, 0, 2]], [[10, 0, 4], [4, 0, 10], [10, 0, 4], [4, 0, 10]]]) := by decide +kernel
example : ends (inFive fun s m => s.diametralRoutes m 2 false true) =
      some (5, [[[1, 2, 0, 6, 5], [5, 6, 0, 2, 1], [1, 5], [5, 1]], [[9, 10, 0, 4, 3], [3, 4, 0, 10, 9], [9, 3], [3, 9]]]) := by decide +kernel
example : ends (inFive fun s m => s.diametralRoutes m 2 true true) =
      some (5, [[[2, 0, 6], [6, 0, 2], [2, 6], [6, 2]], [[10, 0, 4], [4, 0, 10], [10, 4], [4, 10]]]) := by decide +kernel
example : ends (inFive fun s m => s.diametralRoutes m 1 true true) =
      some (5, [[[2, 0, 4], [4, 0, 2], [2, 4], [4, 2]], [[10, 0, 2], [2, 0, 10], [10, 2], [2, 10]]]) := by decide +kernel
example : raises (inFive fun s m => s.diametralRoutes m 6 true true) .JumpIsNotValid := by decide +kernel

/-- test_get_tangencial_routes -/
example : ends (inFive fun s m => s.tangentialRoutes m 2 false false) =
      some (5, [[[1, 2, 4, 6, 5], [5, 6, 4, 2, 1], [1, 2, 4, 6, 5], [5, 6, 4, 2, 1]],
        [[9, 10, 2, 4, 3], [3, 4, 2, 10, 9], [9, 10, 2, 4, 3], [3, 4, 2, 10, 9]]]) := by decide +kernel
example : ends (inFive fun s m => s.tangentialRoutes m 2 true false) =
      some (5, [[[2, 4, 6], [6, 4, 2], [2, 4, 6], [6, 4, 2]], [[10, 2, 4], [4, 2, 10], [10, 2, 4], [4, 2, 10]]]) := by decide +kernel
example : ends (inFive fun s m => s.tangentialRoutes m 2 false true) =
      some (5, [[[1, 2, 4, 6, 5], [5, 6, 4, 2, 1], [1, 5], [5, 1]], [[9, 10, 2, 4, 3], [3, 4, 2, 10, 9], [9, 3], [3, 9]]]) := by decide +kernel
example : ends (inFive fun s m => s.tangentialRoutes m 2 true true) =
      some (5, [[[2, 4, 6], [6, 4, 2], [2, 6], [6, 2]], [[10, 2, 4], [4, 2, 10], [10, 4], [4, 10]]]) := by decide +kernel
example : ends (inFive fun s m => s.tangentialRoutes m 1 true true) =
      some (5, [[[2, 4], [4, 2], [2, 4], [4, 2]], [[10, 2], [2, 10], [10, 2], [2, 10]]]) := by decide +kernel
example : raises (inFive fun s m => s.tangentialRoutes m 6 true true) .JumpIsNotValid := by decide +kernel

/-! ### test_extended_graph.py -/

/-- the network of the tests: feeder lines and circular lines by bus, radial lines by metro -/
def feederRadialCircular (express : Bool) : Py (Network ℚ) := do
  let s := Network.init (← five)
  let m ← busMetro
  addRoutes s ((← s.feederRoutes m.1) ++ (← s.radialRoutes m.2 false express) ++ (← s.circularRoutes m.1))

/-- the nodes of the extended graph of that network, by kind -/
def nodesOfFive : Py (List (CityNode ℚ) × TreeGraph ℚ × List (StopNode ℚ) × List (RouteEntry ℚ)) := do
  let s ← feederRadialCircular false
  let cities := buildCityNodes s.graph
  let tree := buildTreeGraph s.routes cities
  let stops := buildStopNodes tree
  return (cities, tree, stops, ← buildRouteNodes s.routes stops)

/-- test_build_nodes, test_extended_graph_nodes -/
example : holds nodesOfFive (fun q => q.1.length = 11 ∧ q.2.2.1.length = 21 ∧ q.2.2.2.length = 60
    ∧ (buildExtendedNodes q.2.2.2).length = 11 ∧ (stopsOf (buildExtendedNodes q.2.2.2)).length = 21
    ∧ (entriesOf (buildExtendedNodes q.2.2.2)).length = 60) := by decide +kernel

/-- how many entries of a list have this value -/
def count (l : List Nat) (n : Nat) : Nat := (l.filter (· = n)).length

/-- test_build_tree_graph -/
example : holds nodesOfFive (fun q =>
    let stops := q.2.1.map fun p => p.2.length
    let cityRoutes := q.2.1.map fun p => (p.2.map fun r => r.2.length).sum
    let stopRoutes := q.2.1.flatMap fun p => p.2.map fun r => r.2.length
    decide (count stops 1 = 1 ∧ count stops 2 = 10 ∧ count stops 3 = 0 ∧ count cityRoutes 4 = 5 ∧ count cityRoutes 6 = 5
      ∧ count cityRoutes 10 = 1 ∧ count stopRoutes 1 = 0 ∧ count stopRoutes 2 = 15 ∧ count stopRoutes 10 = 1)) := by
  decide +kernel

/-- numbers of access, boarding, alighting and route edges -/
def edgeCounts (l : List (EEdge ℚ)) : List Nat :=
  [EType.access, .boarding, .alighting, .route].map fun t => (l.filter fun e => e.type = t).length

/-- test_build_edges, test_get_extended_edges -/
example : holds (do let s ← feederRadialCircular false; return (← buildExtGraph s.graph s.routes 2 none).edges)
      (fun l => edgeCounts l = [42, 40, 40, 40])
    ∧ holds (do let s ← feederRadialCircular true; return (← buildExtGraph s.graph s.routes 2 none).edges)
      (fun l => edgeCounts l = [32, 30, 30, 30]) := by decide +kernel

end Sidermit.Replay
