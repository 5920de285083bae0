import Verif.Replay.Network
import Verif.Model.Costs
import Verif.Model.UsersCost

/-!
The tests of the repository played on the model: tests/test_constrains.py, test_infrastructure_cost.py,
test_operators_cost.py, test_hyper_path.py, test_assignment.py and test_users_cost.py.
-/

namespace Sidermit.Replay

attribute [local instance] testMath ratText

/-- `f[route.id] = x` for every route -/
def forAll (s : Network ℚ) (x : ℚ) : Dict Str ℚ := s.routes.map fun r => (r.id, x)

/-! ### test_constrains.py -/

/-- radial and feeder lines by bus, short radial lines by metro -/
def threeFamilies : Py (Network ℚ) := do
  let s := Network.init (← city 2 10 1 2)
  let m ← busMetro
  addRoutes s ((← s.radialRoutes m.1 false false) ++ (← s.feederRoutes m.1) ++ (← s.radialRoutes m.2 true false))

/-- test_most_loaded_section_constrains -/
example : holds threeFamilies (fun s => kConstrains s.routes (forAll s 10) = [-150, -150, -150, -150, -1430, -1430]) := by
  decide +kernel

/-- test_fmax_constrains -/
example : holds (do let s ← threeFamilies; fmaxConstrains s.graph s.routes s.modes (forAll s 28)) (fun l => l =
    [-136, -40, -136, -40, -143, -12, -143, -12, -150, -40, -150, -40, -136, -40, -136, -40, -143, -12, -143, -12]) := by
  decide +kernel

/-! ### test_infrastructure_cost.py -/

/-- circular lines by metro and radial lines by bus -/
def circularRadial : Py (Network ℚ) := do
  let s := Network.init (← city 2 10 1 2)
  let m ← busMetro
  addRoutes s ((← s.circularRoutes m.2) ++ (← s.radialRoutes m.1 false false))

/-- test_get_mode_network_distance, test_get_infrastruture_cost -/
example : holds circularRadial (fun s =>
    (modeDistance s.graph s.routes s.modes (forAll s 28)).map (fun p => (p.1.name, p.2)) =
      [("metro".toList, 20), ("bus".toList, 160)]) := by decide +kernel
example : holds circularRadial (fun s => infrastructureCost s.graph s.routes s.modes (forAll s 28) = 18663) := by
  decide +kernel

/-! ### test_operators_cost.py -/

/-- feeder lines by metro and radial lines by bus -/
def feederRadial : Py (Network ℚ) := do
  let s := Network.init (← city 2 10 (1 / 2) 2)
  let m ← busMetro
  addRoutes s ((← s.feederRoutes m.2) ++ (← s.radialRoutes m.1 false false))

/-- test_lines_travel_time -/
example : holds (do let s ← feederRadial; linesTravelTime s.routes s.graph.edgesDistance) (fun t =>
    t.getD "R_bus_1".toList 0 = 3 / 2 ∧ t.getD "F_metro_1".toList 0 = 1 / 4) := by decide +kernel

/-- test_get_operators_cost -/
example : holds feederRadial (fun s => operatorsCost s.routes (forAll s 10) (forAll s 28) (forAll s 100) = 753312 / 10) := by
  decide +kernel

/-! ### test_hyper_path.py -/

/-- the extended graph of a network and the default passenger -/
def prepared (s : Network ℚ) : Py (ExtGraph ℚ × Passenger ℚ) := do
  let p ← Passenger.default
  return (← buildExtGraph s.graph s.routes 16 none, p)

/-- radial lines by bus in a city with these sizes, or no line at all -/
def radialOnly (l p : ℚ) (lines : Bool) : Py (Network ℚ) := do
  let s := Network.init (← city 2 l (1 / 2) p)
  if lines then addRoutes s (← s.radialRoutes (← busMetro).1 false false) else return s

/-- `network_validator` for a thousand trips -/
def validated (lines : Bool) : Py Bool := do
  let s ← radialOnly 10000 2000 lines
  let d ← Demand.buildFromParameters s.graph 1000 (1 / 2) (1 / 3) (1 / 3)
  let x ← prepared s
  networkValidator x.1.nodes x.1.edges x.2 d.matrix

/-- test_network_validator -/
example : raises (validated false) .TransportNetwork := by decide +kernel
example : validated true = .ok true := by decide +kernel

/-- radial and diametral lines by bus, and diametral lines by metro when `metro` -/
def diametral (metro : Bool) : Py (Network ℚ) := do
  let s := Network.init (← city 2 10 (1 / 2) 2)
  let m ← busMetro
  let more ← s.diametralRoutes m.2 1 false false
  addRoutes s ((← s.radialRoutes m.1 false false) ++ (← s.diametralRoutes m.1 1 false false) ++ (if metro then more else []))

/-- the city node with this name -/
def named (x : ExtGraph ℚ) (n : String) : Option (CityNode ℚ) := (Dict.keys x.nodes).find? fun c => c.node.name = n.toList

/-- the stop of a mode at a city node -/
def stopNamed (x : ExtGraph ℚ) (n mode : String) : Option (StopNode ℚ) :=
  (stopsOf x.nodes).find? fun s => s.city.node.name = n.toList ∧ s.mode.name = mode.toList

/-- `label[stop]` to five places, `none` for infinity -/
def labelOf (l : ENode ℚ → WithTop ℚ) (e : Option (ENode ℚ)) : Option ℚ :=
  match e with
  | none => none
  | some e => match l e with
    | none => none
    | some q => some (rounded 5 q)

/-- test_build_hyperpath_graph: the labels of `P_1`, `P_2` and the stop of `P_1` -/
def built : Py (List (Option ℚ)) := do
  let x ← prepared (← diametral false)
  let r ← buildHyperpath ⟨x.1.nodes, x.1.edges, x.2, named x.1 "P_1", named x.1 "P_2"⟩
  return [labelOf r.label ((named x.1 "P_1").map .city), labelOf r.label ((named x.1 "P_2").map .city),
    labelOf r.label ((stopNamed x.1 "P_1" "bus").map .stop)]

example : built = .ok [none, some 0, some (155 / 100)] := by decide +kernel

/-- test_get_hyperpath_OD: labels of `P_1`, `P_2` and the stops of bus and metro; stops with itineraries; itineraries of each -/
def oneOD (o d : String) : Py (List (Option ℚ) × List (Str × Nat)) := do
  let x ← prepared (← diametral true)
  let c ← ((named x.1 o).elim (Except.error .KeyError) Except.ok : Py (CityNode ℚ))
  let e ← ((named x.1 d).elim (Except.error .KeyError) Except.ok : Py (CityNode ℚ))
  let r ← hyperpathOD ⟨x.1.nodes, x.1.edges, x.2, none, none⟩ c e
  return ([labelOf r.1.label (some (.city c)), labelOf r.1.label (some (.city e)), labelOf r.1.label ((stopNamed x.1 o "bus").map .stop),
    labelOf r.1.label ((stopNamed x.1 o "metro").map .stop)], r.2.map fun p => (p.1.mode.name, p.2.length))

example : oneOD "P_1" "P_2" = .ok ([none, some 0, some (130238 / 10 ^ 5), some (83571 / 10 ^ 5 + 5 / 100)],
    [("bus".toList, 2), ("metro".toList, 1)]) := by decide +kernel

/-- test_get_all_hyperpaths: the labels at `P_1` for `SC_2` -/
example : holds (oneOD "P_1" "SC_2") (fun r => r.1.drop 2 = [some (117738 / 10 ^ 5), some (71071 / 10 ^ 5 + 5 / 100)]) := by
  decide +kernel

end Sidermit.Replay
