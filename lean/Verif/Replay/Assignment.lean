import Verif.Replay.Costs

/-!
The tests of the repository played on the model: tests/test_assignment.py, test_users_cost.py and the cycle times of
test_operators_cost.py, all on the network with feeder lines by metro and radial lines by bus.  The
trips from zone 1 and those from zone 2 are played one after the other (checked together they need too much memory): the
tables and the times are sums over the trips.
-/

namespace Sidermit.Replay

attribute [local instance] testMath ratText

/-- what `setUp` of test_assignment.py makes: the city, lines, extended graph, and the itineraries with their shares (the
validation that comes first in `get_all_hyperpaths` is played above) -/
structure Prepared where
  net : Network ℚ
  ext : ExtGraph ℚ
  pas : Passenger ℚ
  pairs : List (ODResult ℚ × Dict (StopNode ℚ) ℚ)

def setUp (origins : List Int) : Py Prepared := do
  let s ← feederRadial
  let d ← Demand.buildFromParameters s.graph 100 (1 / 2) (1 / 3) (1 / 3)
  let x ← prepared s
  let l ← odAll x.1.nodes x.1.edges x.2 (d.matrix.filter fun r => r.1 ∈ origins)
  let a ← getAssignment l 2 x.2.va x.2.spa x.2.spv
  return ⟨s, x.1, x.2, l.zip a⟩

/-- the share of a stop for a pair of places, to two places -/
def shareOf (q : Prepared) (o d mode : String) : Option ℚ :=
  match q.pairs.find? fun p => p.1.origin.node.name = o.toList ∧ p.1.dest.node.name = d.toList with
  | none => none
  | some p => (p.2.find? fun s => s.1.mode.name = mode.toList).map fun s => rounded 2 s.2

/-- an entry of a table of boardings, alightings or loads (0 when absent) -/
def entryOf (t : Dict (LoadKey ℚ) ℚ) (line : String) (dir : Dir) (place : String) : ℚ :=
  match t.find? fun p => p.1.1 = line.toList ∧ p.1.2.1 = dir ∧ p.1.2.2.city.node.name = place.toList with
  | none => 0
  | some p => p.2

/-- the entries of the tables that the tests look at, then the time added to the cycles of the lines of zone 1, and the four
times of the travellers, with the frequency 28 on every line -/
def observed (q : Prepared) : Py (List ℚ) := do
  let f := forAll q.net 28
  let n := (allNodes q.ext.nodes).length
  let t ← getLoads n f q.pairs
  let times ← linesTravelTime q.net.routes q.net.graph.edgesDistance
  let c := (getCycleTime t.z t.v q.net.routes times).time
  let u ← resourcesConsumer n f q.ext q.pas.va [] [] q.pairs
  return [entryOf t.z "R_bus_1" .I "P_1", entryOf t.z "R_bus_1" .I "SC_1", entryOf t.z "R_bus_1" .R "CBD",
    entryOf t.v "R_bus_1" .I "CBD", entryOf t.v "R_bus_1" .I "SC_1", entryOf t.v "R_bus_1" .R "SC_1",
    entryOf t.z "F_metro_1" .I "P_1", entryOf t.v "F_metro_1" .I "SC_1", entryOf t.z "F_metro_1" .R "SC_1",
    c.getD "F_metro_1".toList 0 - 1 / 4, c.getD "R_bus_1".toList 0 - 3 / 2, u.ta, u.te, u.tv, u.t]

/-- the shares of test_assignment -/
def shares (q : Prepared) : List (Option ℚ) := [shareOf q "P_1" "CBD" "bus", shareOf q "P_1" "SC_1" "bus", shareOf q "P_1" "SC_1" "metro"]

/-- the fullest sections of the two lines of zone 1 -/
def fullest (q : Prepared) : Py (List ℚ) := do
  let t ← getLoads (allNodes q.ext.nodes).length (forAll q.net 28) q.pairs
  return [(mostLoaded t.load).getD "F_metro_1".toList 0, (mostLoaded t.load).getD "R_bus_1".toList 0]

/-- what the trips from zone 1 give -/
def first : List ℚ := [11965 / 14112, 25 / 28, 0, 125 / 84, 3565 / 14112, 0, 635 / 14112, 635 / 14112, 0,
  1397 / 169344000, 9113 / 4064256, 1385927 / 903168, 196999 / 28224, 150565 / 4032, 125 / 6]

/-- what the trips from zone 2 give -/
def second : List ℚ := [0, 0, 125 / 168, 0, 0, 125 / 168, 0, 0, 0, 0, 25 / 24192, 1385927 / 903168, 196999 / 28224, 150565 / 4032, 125 / 6]

/-- test_assignment and test_most_loaded_section -/
example : (do let q ← setUp [1, 2]; return (shares q, ← observed q, (← fullest q).map (rounded 9)) :
      Py (List (Option ℚ) × List ℚ × List ℚ)) =
    .ok ([some 100, some (8488 / 100), some (1512 / 100)], first, [44997166 / 10 ^ 9, 1488095238 / 10 ^ 9]) := by decide +kernel

example : (do let q ← setUp [3, 4]; observed q : Py (List ℚ)) = .ok second := by decide +kernel

/-- the two together -/
def total : List ℚ := first.zipWith (· + ·) second

/-- test_get_alighting_and_boarding, test_get_cycle_time (less the time of travel), test_resources_consumer -/
example : (List.zipWith rounded [2, 2, 2, 2, 2, 2, 2, 2, 2, 7, 7, 4, 4, 4, 4] total) =
    [85 / 100, 89 / 100, 74 / 100, 149 / 100, 25 / 100, 74 / 100, 4 / 100, 4 / 100, 0, 2500082 / 10 ^ 7 - 1 / 4,
      15032756 / 10 ^ 7 - 3 / 2, 3069 / 1000, 139597 / 10 ^ 4, 74685 / 1000, 416667 / 10 ^ 4] := by decide +kernel

/-- test_user_cost -/
example : holds Passenger.default (fun p => rounded 4 (resourcesCost p ⟨total.getD 11 0, total.getD 12 0, total.getD 13 0, total.getD 14 0⟩) =
    3368079 / 10 ^ 4) := by decide +kernel

end Sidermit.Replay
