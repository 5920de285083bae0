import Mathlib.Algebra.Field.Rat
import Mathlib.Algebra.Order.Ring.Rat
import Verif.Model.Pajek
import Verif.Model.Demand
import Verif.Model.Mode
import Verif.Spec.RatMath

/-!
The tests of the repository itself, played on the model: tests/test_graph.py, test_demand.py, test_transport_mode.py and
test_transport_user.py.  These are tests, not proofs of properties: they show that the model gives the values which the
code is known to give (the assertions of the test suite), and so that the theorems speak about this code.

Left out: assertions about values of a type that the model rules out (`None` as an id, a text in place of a mode), about
the figures, and the angles of 45 degrees (the rational functions of these replays know the multiples of 90 degrees only).
-/

namespace Sidermit.Replay

/-- the integer square root by Newton's method, quick enough for the numbers of the tests -/
def newton (n : Nat) : Nat → Nat → Nat
  | 0, x => x
  | k + 1, x => let y := (x + n / x) / 2; if y < x then newton n k y else x

/-- the functions of `ratMath` with a quick root, and with the sine and cosine of 10 and 50 degrees to fifteen places -/
@[reducible] def testMath : PyMath ℚ where
  sqrt q := (newton q.num.toNat 200 (q.num.toNat + 1) : ℚ) / (newton q.den 200 (q.den + 1) : ℚ)
  cosDeg a := if a = 10 then 984807753012208 / 10 ^ 15 else if a = 50 then 642787609686539 / 10 ^ 15 else ratMath.cosDeg a
  sinDeg a := if a = 10 then 173648177666930 / 10 ^ 15 else if a = 50 then 766044443118978 / 10 ^ 15 else ratMath.sinDeg a
  acosDeg := ratMath.acosDeg

attribute [local instance] testMath ratText

/-- the call gave a value and the value passes the test -/
def holds {α : Type} (x : Py α) (p : α → Bool) : Bool :=
  match x with
  | .ok a => p a
  | .error _ => false

/-- the call raised this exception: `assertRaises` -/
def raises {α : Type} (x : Py α) (e : PyErr) : Bool :=
  match x with
  | .ok _ => false
  | .error d => d = e

/-- `round(x, n)` -/
def rounded (n : Nat) (q : ℚ) : ℚ := (((q * 10 ^ n + 1 / 2).floor : Int) : ℚ) / 10 ^ n

/-- a file of the test suite, given by its lines -/
def lines (ls : List String) : Str := joinWith '\n' (ls.map String.toList)

/-- `Graph.build_from_parameters(n, l, g, p)` -/
def city (n : Int) (l g p : ℚ) : Py (Graph ℚ) := buildFromParameters n l g p none none none none none

/-- numbers of nodes, edges and zones -/
def sizes (x : Py (Graph ℚ)) : Option (Nat × Nat × Nat) := x.toOption.map fun g => (g.nodes.length, g.edges.length, g.zones.length)

/-! ### test_graph.py -/

def head : String := "[id] [name] [x] [y] [type] [zone_id] [width]"

def read (ls : List String) : Py (Graph ℚ) := buildFromContent (lines ls)

def zone0 : List String := [head, "*vertices 1", "0 CBD 0 0 CBD 0 0"]
def zone1 : List String := [head, "*vertices 3", "0 CBD 0 0 CBD 0 0", "1 SC_1 1000 0 SC 1 0", "2 P_1 1000 0 P 1 0"]
def zone2 : List String := [head, "*vertices 5", "0 CBD 0 0 CBD 0 0", "1 SC_1 1000 0 SC 1 0", "2 P_1 1000 0 P 1 0",
  "3 SC_2 -1000 0 SC 2 0", "4 P_2 -1000 0 P 2 0"]
def zone3 : List String := [head, "*vertices 7", "0 CBD 0 0 CBD 0 0", "1 SC_1 1000 0 SC 1 0", "2 P_1 1000 0 P 1 0",
  "3 SC_2 -1000 0 SC 2 0", "4 P_2 -1000 0 P 2 0", "5 SC_3 0 -1000 SC 3 0", "6 P_3 0 -1000 P 3 0"]

/-- test_build_from_pajek_file, test_get_method -/
example : sizes (read zone0) = some (1, 0, 0) := by decide +kernel
example : sizes (read zone1) = some (3, 4, 1) := by decide +kernel
example : sizes (read zone2) = some (5, 10, 2) := by decide +kernel
example : sizes (read zone3) = some (7, 18, 3) ∧ holds (read zone3) (fun g => g.getCbd.isSome ∧ g.n = some 3) := by decide +kernel

/-- test_exceptions_string_in_pajek -/
example : raises (read [head, "*vertices 7", "0 CBD 0 0 CBD 0 0", "1 SC_1 1000 0 SC 1 0", "2 P_1 1000 0 P 1 0",
    "3 SC_2 -1000 0 SC 2 0", "4 P_2 -1000 0 P 2 0", "id_5 SC_3 0 -1000 SC 3 0", "6 P_3 0 -1000 P 3 0"])
    .NodeIdIsNotAnInteger := by decide +kernel
example : raises (read [head, "*vertices 7", "0 CBD 0 0 CBD zone_cbd 0", "1 SC_1 1000 0 SC 1 0", "2 P_1 1000 0 P 1 0",
    "3 SC_2 -1000 0 SC 2 0", "4 P_2 -1000 0 P 2 0", "5 SC_3 0 -1000 SC 3 0", "6 P_3 0 -1000 P 3 0"])
    .ZoneIdIsNotAnInteger := by decide +kernel

/-- test_raises_payekformat, test_pajekfile_to_dataframe_exceptions, test_build_from_file_exceptions,
test_add_zone_exceptions, test_add_nodes_exceptions -/
example : raises (read [head, "*vertices 3", "0 CBD 0 0 CBD 0 0", "1 SC_1 1000 0 SC 1 0", "2 P_1 1000 0 P 1"])
    .PajekFormatIsNotValid := by decide +kernel
example : raises (read [head, "*vertices 3", "0 CBD 0 0 Node_type 0 0", "1 SC_1 1000 0 SC 1 0", "2 P_1 1000 0 P 1 0"])
    .NodeTypeIsNotValid := by decide +kernel
example : raises (read [head, "*vertices 4", "0 CBD 0 0 CBD 0 0", "1 SC_1 1000 0 SC 1 0", "2 P_1 1000 0 P 1 0",
    "3 P_2 -1000 0 P 2 0"]) .LineNumberInFileIsNotValid := by decide +kernel
example : raises (read [head, "*vertices 3", "0 CBD 0 0 CBD 0 0", "1 SC_1 1000 0 SC 1 0", "2 SC_1 1000 0 SC 1 0"])
    .PeripherySubcenterNumberForZone := by decide +kernel
example : raises (read [head, "*vertices 3", "0 P_0 0 0 P 0 0", "1 P_1 1000 0 P 1 0", "2 SC_1 1000 0 SC 1 0"])
    .CBDDoesNotExist := by decide +kernel
example : raises (read [head, "*vertices 3", "0 CBD 0 0 CBD 0 0", "1 SC_1 1000 0 SC 1 0", "0 P_1 1000 0 P 1 0"])
    .NodeIdDuplicated := by decide +kernel

/-- test_get_edges_distance -/
example : holds (city 2 10 (1 / 2) 2) (fun g => lookup2 g.edgesDistance 1 2 = some 5 ∧ lookup2 g.edgesDistance 2 0 = some 10) := by
  decide +kernel

/-- test_Node_Exceptions, test_CBD_Exceptions -/
example : raises (mkNode (K := ℚ) .periphery 0 0 0 (-2) 0 0 0 "CBD".toList) .NodeRadiusIsNotValid
    ∧ raises (mkNode (K := ℚ) .periphery 0 0 0 0 (-10) 0 0 "CBD".toList) .NodeAngleIsNotValid
    ∧ raises (mkNode (K := ℚ) .periphery 0 0 0 0 0 (-2) 0 "CBD".toList) .NodeWidthIsNotValid
    ∧ raises (mkNode (K := ℚ) .cbd 0 0 0 0 0 0 2 "CBD".toList) .ZoneIdIsNotValid := by decide +kernel

def p1 : Node ℚ := ⟨1, 1, 1, 1, 1, 1, 1, "p".toList, .periphery⟩
def sc1 : Node ℚ := ⟨2, 1, 1, 1, 1, 1, 1, "sc".toList, .subcenter⟩
def cbd : Node ℚ := ⟨0, 0, 0, 0, 0, 0, 0, "CBD".toList, .cbd⟩

/-- test_Zone_Exceptions -/
example : raises (mkZone (-1) (some p1) (some sc1) 0 1) .ZoneIdIsNotValid
    ∧ raises (mkZone 1 (some sc1) (some sc1) 0 0) .PeripheryNodeTypeIsNotValid
    ∧ raises (mkZone 1 (some p1) (some p1) 0 0) .SubcenterNodeTypeIsNotValid
    ∧ raises (mkZone 2 (some p1) (some sc1) 0 1) .ZoneIdIsNotValid := by decide +kernel

/-- test_Edge_Exceptions -/
example : raises (mkEdge [p1] 1 0 0) .EdgeIsNotAvailable ∧ raises (mkEdge [p1, cbd] 1 0 1) .EdgeIsNotAvailable
    ∧ raises (mkEdge [p1, cbd] 1 1 0) .EdgeIsNotAvailable := by decide +kernel

/-- test_symmetric_parameters_exceptions -/
example : raises (city (-1) 1000 (1 / 2) 0) .NIsNotValidNumber ∧ raises (city 1 (-1000) (1 / 2) 0) .LIsNotValidNumber
    ∧ raises (city 1 1000 (-1 / 2) 0) .GIsNotValidNumber ∧ raises (city 1 1000 (1 / 2) (-1)) .PIsNotValidNumber := by
  decide +kernel

/-- test_asymmetric_parameters_exceptions -/
example : raises (buildFromParameters (K := ℚ) 2 1000 (1 / 2) 0 none (some 2) none none none) .EthaValueRequired
    ∧ raises (buildFromParameters (K := ℚ) 2 1000 (1 / 2) 0 (some (1 / 2)) none none none none) .EthaZoneValueRequired
    ∧ raises (buildFromParameters (K := ℚ) 2 1000 (1 / 2) 0 (some (-1)) (some 2) none none none) .EthaValueIsNotValid
    ∧ raises (buildFromParameters (K := ℚ) 2 1000 (1 / 2) 0 (some (1 / 2)) (some 3) none none none) .EthaZoneValueIsNotValid
    ∧ raises (buildFromParameters (K := ℚ) 2 1000 (1 / 2) 0 none none (some [20]) none none) .AngleListLengthIsNotValid
    ∧ raises (buildFromParameters (K := ℚ) 2 1000 (1 / 2) 0 none none (some [20, 370]) none none) .AngleValueIsNotValid
    ∧ raises (buildFromParameters (K := ℚ) 2 1000 (1 / 2) 0 none none none (some [1 / 2]) none) .GiListLengthIsNotValid
    ∧ raises (buildFromParameters (K := ℚ) 2 1000 (1 / 2) 0 none none none (some [1 / 2, -2]) none) .GiValueIsNotValid
    ∧ raises (buildFromParameters (K := ℚ) 2 1000 (1 / 2) 0 none none none none (some [1 / 2])) .HiListLengthIsNotValid
    ∧ raises (buildFromParameters (K := ℚ) 2 1000 (1 / 2) 0 none none none none (some [1 / 2, -2])) .HiValueIsNotValid := by
  decide +kernel

/-- test_build_from_parameters -/
example : sizes (city 1 1000 (1 / 2) 0) = some (3, 4, 1)
    ∧ holds (city 1 1000 (1 / 2) 0) (fun g => g.n = some 1 ∧ g.l = some 1000 ∧ g.g = some (1 / 2) ∧ g.p = some 0)
    ∧ sizes (buildFromParameters (K := ℚ) 1 1000 (1 / 2) 0 none none (some [10]) none none) = some (3, 4, 1)
    ∧ sizes (buildFromParameters (K := ℚ) 2 1000 (1 / 2) 0 none none (some [10, 50]) none none) = some (5, 10, 2)
    ∧ sizes (buildFromParameters (K := ℚ) 1 1000 (1 / 2) 0 none none none (some [2]) none) = some (3, 4, 1)
    ∧ sizes (buildFromParameters (K := ℚ) 2 1000 (1 / 2) 0 none none none (some [2, 1 / 2]) none) = some (5, 10, 2)
    ∧ sizes (buildFromParameters (K := ℚ) 1 1000 (1 / 2) 0 none none none none (some [2])) = some (3, 4, 1)
    ∧ sizes (buildFromParameters (K := ℚ) 2 1000 (1 / 2) 0 none none none none (some [2, 1 / 2])) = some (5, 10, 2)
    ∧ sizes (buildFromParameters (K := ℚ) 1 1000 (1 / 2) 0 (some (1 / 2)) (some 1) none none none) = some (3, 4, 1)
    ∧ sizes (buildFromParameters (K := ℚ) 2 1000 (1 / 2) 0 (some (1 / 2)) (some 2) none none none) = some (5, 10, 2)
    ∧ sizes (buildFromParameters (K := ℚ) 1 1000 (1 / 2) 0 (some (1 / 2)) (some 1) (some [10]) (some [2]) (some [2])) =
      some (3, 4, 1) := by
  decide +kernel

/-- `build_from_parameters(2, 1000, 0.5, 0, etha=0.5, etha_zone=1, angles=[10, 50], Gi=[2, 0.5], Hi=[2, 0.5])` -/
def askew : Py (Graph ℚ) :=
  buildFromParameters 2 1000 (1 / 2) 0 (some (1 / 2)) (some 1) (some [10, 50]) (some [2, 1 / 2]) (some [2, 1 / 2])

/-- test_build_from_parameters, last part -/
example : sizes askew = some (5, 10, 2) ∧ holds askew (fun g => g.etha = some (1 / 2) ∧ g.ethaZone = some 1
    ∧ g.angles = some [10, 50] ∧ g.gi = some [2, 1 / 2] ∧ g.hi = some [2, 1 / 2]) := by decide +kernel

/-- test_graph_to_pajek: ids, names, coordinates (to nine places), kinds, zones and widths of the lines of
tests/file/graph/write1_test.PAJEK -/
example : holds askew (fun g => decide (g.nodes.map (fun nd => (nd.id, nd.name, nd.kind.text, nd.zone, [rounded 9 nd.x, rounded 9 nd.y, nd.width])) =
    [(0, "CBD".toList, "CBD".toList, 0, [984807753012 / 10 ^ 9, 173648177667 / 10 ^ 9, 0]),
     (1, "P_1".toList, "P".toList, 1, [2954423259037 / 10 ^ 9, 520944533001 / 10 ^ 9, 0]),
     (2, "SC_1".toList, "SC".toList, 1, [1969615506024 / 10 ^ 9, 347296355334 / 10 ^ 9, 0]),
     (3, "P_2".toList, "P".toList, 2, [482090707265 / 10 ^ 9, 574533332339 / 10 ^ 9, 0]),
     (4, "SC_2".toList, "SC".toList, 2, [321393804843 / 10 ^ 9, 383022221559 / 10 ^ 9, 0])])) := by decide +kernel

/-- test_obtain_angle -/
example : getAngle (K := ℚ) 1 0 = .ok 0 ∧ getAngle (K := ℚ) 0 1 = .ok 90 ∧ getAngle (K := ℚ) (-1) 0 = .ok 180
    ∧ getAngle (K := ℚ) 0 (-1) = .ok 270 := by decide +kernel

/-- test_edges_exist -/
example : holds (buildFromParameters (K := ℚ) 7 1000 (1 / 2) 0 (some (1 / 2)) (some 3) (some [10, 50, 150, 180, 270, 300, 320])
    (some [1, 2, 1, 1, 1, 3, 2]) (some [1, 2, 1, 1, 1, 1 / 2, 3])) (fun g => g.edgeExist 1 2 ∧ ¬ g.edgeExist 1 200) := by
  decide +kernel

/-! ### test_demand.py -/

def trips (n : Int) (y a alpha beta : ℚ) : Py (Demand ℚ) := do
  let g ← city n 1000 (1 / 2) 2
  Demand.buildFromParameters g y a alpha beta

/-- test_symmetric_parameters_exceptions -/
example : raises (trips 3 (-100) (1 / 2) (1 / 3) (1 / 3)) .YOutOfRange ∧ raises (trips 3 1000 2 (1 / 3) (1 / 3)) .AOutOfRange
    ∧ raises (trips 3 1000 (1 / 2) 2 (1 / 3)) .AlphaOutOfRange ∧ raises (trips 3 1000 (1 / 2) (1 / 3) 2) .BetaOutOfRange
    ∧ raises (trips 3 1000 (1 / 2) (8 / 10) (8 / 10)) .AlphaBetaOutOfRange := by decide +kernel

/-- test_build_from_parameters -/
example : holds (trips 0 1000 (1 / 2) (1 / 3) (1 / 3)) (fun d => d.matrix.length = 1)
    ∧ holds (trips 1 1000 (1 / 2) (1 / 3) (1 / 3)) (fun d => d.matrix.length = 3)
    ∧ holds (trips 2 1000 (1 / 2) (1 / 3) (1 / 3)) (fun d => d.matrix.length = 5) := by decide +kernel

def readTrips (ls : List String) : Py (Demand ℚ) := do
  let g ← city 3 1000 (1 / 2) 2
  Demand.buildFromFile g (lines ls)

def tripHead : String := "origin,destination,vij"

/-- test_build_from_file, test_change_vij_exceptions, test_build_from_file_exceptions -/
example : holds (readTrips [tripHead, "0,1,100", "1,2,200", "2,1,300", "1,0,100", "2,0,100", "1,3,100", "1,4,100", ""])
      (fun d => d.matrix.length = 7)
    ∧ raises (readTrips [tripHead, "hola,1,0"]) .NodeIdDemandIsNotAnInteger
    ∧ raises (readTrips [tripHead, "0,1,-100"]) .TripsValueIsNotValid
    ∧ raises (readTrips [tripHead, "1,10,100"]) .DestinationIdDoesNotFound
    ∧ raises (readTrips [tripHead, "10,1,100"]) .OriginIdDoesNotFound
    ∧ raises (readTrips [tripHead, "0,1"]) .FileFormatIsNotValid := by decide +kernel

/-- test_matrix_to_file: the rows of tests/file/demand/write1_test.csv, to nine places -/
example : holds (trips 2 1000 (1 / 2) (1 / 3) (1 / 3)) (fun d => decide (
    (d.matrix.flatMap fun r => r.2.map fun c => (r.1, c.1, rounded 9 c.2)) =
    [(0, 0, 0), (0, 1, 0), (0, 2, 0), (0, 3, 0), (0, 4, 0),
     (1, 0, 83333333333 / 10 ^ 9), (1, 1, 0), (1, 2, 83333333333 / 10 ^ 9), (1, 3, 0), (1, 4, 83333333333 / 10 ^ 9),
     (2, 0, 125), (2, 1, 0), (2, 2, 0), (2, 3, 0), (2, 4, 125),
     (3, 0, 83333333333 / 10 ^ 9), (3, 1, 0), (3, 2, 83333333333 / 10 ^ 9), (3, 3, 0), (3, 4, 83333333333 / 10 ^ 9),
     (4, 0, 125), (4, 1, 0), (4, 2, 125), (4, 3, 0), (4, 4, 0)])) := by decide +kernel

/-! ### test_transport_mode.py -/

/-- a mode manager after a list of calls of `remove_mode` -/
def without (names : List String) : Py (ModeManager ℚ) := do
  let s ← ModeManager.init 0 true
  names.foldlM (fun s n => let r := s.removeMode n.toList; match r.2 with | none => .ok r.1 | some e => .error e) s

/-- test_is_valid_to_assignment_step, test_get, test_delete_mode -/
example : holds (do (← without []).isValidToAssignmentStep) id ∧ holds (do (← without ["bus"]).isValidToAssignmentStep) id
    ∧ raises (do (← without ["bus", "metro"]).isValidToAssignmentStep) .TransportNetwork
    ∧ holds (without []) (fun s => s.modes.length = 2 ∧ s.names.length = 2)
    ∧ holds (do (← without []).getMode "bus".toList) (fun _ => true)
    ∧ raises (do (← without []).getMode "train".toList) .ModeNotFound
    ∧ holds (without ["bus"]) (fun s => s.modes.length = 1) ∧ raises (without ["bus", "train"]) .ModeDoesNotExist := by
  decide +kernel

def modeArgs : ModeArgs ℚ :=
  ⟨some "bus".toList, some 1, some 1, some 1, some 1, some 20, some (1 / 5), some 100, some 50, some (1 / 2), some 1, some 1, some 28⟩

/-- test_raises_mode_exceptions -/
example : raises (Mode.new 0 { modeArgs with name := none }) .NameIsNotValid
    ∧ raises (Mode.new 0 { modeArgs with bya := some (-1) }) .ByaIsNotValid
    ∧ raises (Mode.new 0 { modeArgs with co := some (-2) }) .CoIsNotValid
    ∧ raises (Mode.new 0 { modeArgs with c1 := none }) .C1IsNotValid
    ∧ raises (Mode.new 0 { modeArgs with c2 := some (-3) }) .C2IsNotValid
    ∧ raises (Mode.new 0 { modeArgs with v := none }) .VIsNotValid
    ∧ raises (Mode.new 0 { modeArgs with t := some (-3) }) .TIsNotValid
    ∧ raises (Mode.new 0 { modeArgs with fmax := some (-200) }) .FmaxIsNotValid
    ∧ raises (Mode.new 0 { modeArgs with kmax := some (-100) }) .KmaxIsNotValid
    ∧ raises (Mode.new 0 { modeArgs with theta := some 2 }) .ThetaIsNotValid
    ∧ raises (Mode.new 0 { modeArgs with tat := none }) .TatIsNotValid
    ∧ raises (Mode.new 0 { modeArgs with fini := some (-1) }) .FiniIsNotValid := by decide +kernel

/-- the number of modes after `add_mode` of a new mode with this name, or the exception -/
def added (name : String) : Py Nat := do
  let m ← Mode.new 7 { modeArgs with name := some name.toList }
  let s ← ModeManager.init 0 true
  match s.addMode m with
    | (t, none) => .ok t.modes.length
    | (_, some e) => .error e

/-- test_add_mode -/
example : added "train" = .ok 3 ∧ raises (added "bus") .AddMode := by decide +kernel

/-! ### test_transport_user.py -/

/-- test_create_passenger, test_get_default_passenger -/
example : Passenger.new (K := ℚ) (some 1) (some 2) (some 3) (some 4) (some 5) (some 6) (some 7) (some 8) (some 9) =
      .ok ⟨1, 2, 3, 4, 5, 6, 7, 8, 9⟩
    ∧ Passenger.default (K := ℚ) = .ok ⟨4, 274 / 100, 548 / 100, 822 / 100, 16, 274 / 100, 548 / 100, 822 / 100, 16⟩ := by
  decide +kernel

/-- test_raises_user_exceptions -/
example : raises (Passenger.new (K := ℚ) (some 0) (some 1) (some 1) (some 1) (some 1) (some 1) (some 1) (some 1) (some 1)) .VaIsNotValid
    ∧ raises (Passenger.new (K := ℚ) (some 1) (some (-1)) (some 1) (some 1) (some 1) (some 1) (some 1) (some 1) (some 1)) .PvIsNotValid
    ∧ raises (Passenger.new (K := ℚ) (some 1) (some 1) (some (-1)) (some 1) (some 1) (some 1) (some 1) (some 1) (some 1)) .PwIsNotValid
    ∧ raises (Passenger.new (K := ℚ) (some 1) (some 1) (some 1) (some (-1)) (some 1) (some 1) (some 1) (some 1) (some 1)) .PaIsNotValid
    ∧ raises (Passenger.new (K := ℚ) (some 1) (some 1) (some 1) (some 1) (some (-1)) (some 1) (some 1) (some 1) (some 1)) .PtIsNotValid
    ∧ raises (Passenger.new (K := ℚ) (some 1) (some 1) (some 1) (some 1) (some 1) (some (-1)) (some 1) (some 1) (some 1)) .SpvIsNotValid
    ∧ raises (Passenger.new (K := ℚ) (some 1) (some 1) (some 1) (some 1) (some 1) (some 1) (some (-1)) (some 1) (some 1)) .SpwIsNotValid
    ∧ raises (Passenger.new (K := ℚ) (some 1) (some 1) (some 1) (some 1) (some 1) (some 1) (some 1) (some (-1)) (some 1)) .SpaIsNotValid
    ∧ raises (Passenger.new (K := ℚ) (some 1) (some 1) (some 1) (some 1) (some 1) (some 1) (some 1) (some 1) (some (-1))) .SptIsNotValid := by
  decide +kernel

end Sidermit.Replay
