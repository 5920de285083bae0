import Mathlib.Data.Rat.Floor
import Verif.Replay.Assignment
import Verif.Model.Report
import Verif.Model.PathText

/-!
Outputs of real runs that are recorded in the notebook of the repository (examples/examples_sidermit.ipynb), played on the
model.  These are tests of the model, not proofs.  Some recorded outputs are of an older version of the code and are left
out: the users' resources of cell 48 (tests/test_users_cost.py has the present values) and the distance between frequencies
in the log of cell 54, which is a sum without the absolute values that `f_distance` takes (optimizer.py:302).  The rest of the
text of the graph and the text of the results in cell 54 need too much memory for the kernel; run as programs (`#eval`) they
also come out as recorded, except that the ratios which the code prints as decimals are printed as fractions here.
-/

namespace Sidermit.Replay

attribute [local instance] testMath ratText

/-- cell 36: four families in a city with two zones -/
def notebookNet : Py (Network ℚ) := do
  let s := Network.init (← city 2 10 (1 / 2) 2)
  let m ← busMetro
  addRoutes s ((← s.feederRoutes m.1) ++ (← s.radialRoutes m.2 true false) ++ (← s.circularRoutes m.1) ++
    (← s.radialRoutes m.1 false false))

/-- cells 36 and 37: `string_hyperpath_graph` and `string_hyperpaths_OD` from `P_1` to the CBD -/
def notebookPaths : Py (Str × Str) := do
  let x ← prepared (← notebookNet)
  let c ← ((named x.1 "P_1").elim (Except.error .KeyError) Except.ok : Py (CityNode ℚ))
  let e ← ((named x.1 "CBD").elim (Except.error .KeyError) Except.ok : Py (CityNode ℚ))
  let r ← hyperpathOD ⟨x.1.nodes, x.1.edges, x.2, none, none⟩ c e
  return (hyperText x.1.nodes r.1, pathsText r.2 r.1.label)

/-- the nodes of the periphery of zone 1, the first ones of the text -/
def recordedGraph : List String := [
  "HyperPath Graph", "City_node", "\t-Graph_node_name: P_1", "\t-label: inf", "\t-Successor: ", "\t-Frequencies: 0.00",
  "Stop_node", "\t-Mode_name: bus", "\t-Graph_node_name: P_1", "\t-label: 0.80",
  "\t-Successor: [ExtendedEdgesType.BOARDING: Stopnode bus: P_1 - Routenode R_bus_1 I: P_1] ", "\t-Frequencies: 28.00",
  "Route_node", "\t-route_id: F_bus_1", "\t-direction: I", "\t-Graph_node_name: P_1", "\t-label: 0.90",
  "\t-Successor: [ExtendedEdgesType.ROUTE: Routenode F_bus_1 I: P_1 - Routenode F_bus_1 I: SC_1] ", "\t-Frequencies: 0.00",
  "Route_node", "\t-route_id: F_bus_1", "\t-direction: R", "\t-Graph_node_name: P_1", "\t-label: 1.07",
  "\t-Successor: [ExtendedEdgesType.ALIGHTING: Routenode F_bus_1 R: P_1 - Stopnode bus: P_1] ", "\t-Frequencies: 0.00",
  "Route_node", "\t-route_id: R_bus_1", "\t-direction: I", "\t-Graph_node_name: P_1", "\t-label: 0.75",
  "\t-Successor: [ExtendedEdgesType.ROUTE: Routenode R_bus_1 I: P_1 - Routenode R_bus_1 I: SC_1] ", "\t-Frequencies: 0.00",
  "Route_node", "\t-route_id: R_bus_1", "\t-direction: R", "\t-Graph_node_name: P_1", "\t-label: 1.07",
  "\t-Successor: [ExtendedEdgesType.ALIGHTING: Routenode R_bus_1 R: P_1 - Stopnode bus: P_1] ", "\t-Frequencies: 0.00"]

def recordedPaths : List String := [
  "", "bus stop", "", "\tNew Path:", "\t\t[City_node P_1: inf]", "\t\t[Stop_node bus - P_1: 0.8000]",
  "\t\t[Route_node R_bus_1 I - P_1: 0.7500]", "\t\t[Route_node R_bus_1 I - SC_1: 0.5000]",
  "\t\t[Route_node R_bus_1 I - CBD: 0.0000]", "\t\t[Stop_node bus - CBD: 0.0000]", "\t\t[City_node CBD: 0.0000]", "\t\t"]

example : holds notebookPaths (fun r => r.1.take (lines recordedGraph).length == lines recordedGraph && r.2 == lines recordedPaths) = true := by
  decide +kernel

/-- cell 54: feeder lines by bus and short radial lines by metro -/
def notebookOptimizer : Py (Optimizer ℚ) := do
  let s := Network.init (← city 2 10 (85 / 100) 2)
  let m ← busMetro
  let s ← addRoutes s ((← s.feederRoutes m.1) ++ (← s.radialRoutes m.2 true false))
  let d ← Demand.buildFromParameters s.graph 100000 (78 / 100) (1 / 4) (22 / 100)
  Optimizer.init s.graph d (← Passenger.default) s none

/-- `VRC` in the log -/
def recordedCost : ℚ := 41447142347790254 / 10 ^ 11

/-- what the solver found, as far as the digits are printed -/
def recordedResult : Res ℚ :=
  ⟨[56799461135 / 10 ^ 8, 56799462016 / 10 ^ 8, 3999989319 / 10 ^ 8, 3999989319 / 10 ^ 8], some true, 1,
    "`gtol` termination condition is satisfied.".toList, 0, recordedCost⟩

/-- the objective at that point is the recorded one, and the constraints hold there, as recorded -/
example : holds (do let o ← notebookOptimizer; return (← o.vrc recordedResult.x, ← o.constrains recordedResult.x) :
      Py (ℚ × List ℚ))
    (fun r => rounded 5 r.1 == rounded 5 recordedCost && r.2.all (fun c => decide (c < 0))) = true := by decide +kernel

end Sidermit.Replay
