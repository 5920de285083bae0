import Verif.Model.Assignment

/-!
Model of `sidermit/optimization/constrains.py`, `sidermit/optimization/infrastructure_cost.py` and
`sidermit/optimization/operators_cost.py`.

The tables `dic[route_id][direction][stop]` are dictionaries with the key `(route_id, direction, stop)`, as in
`Verif/Model/Assignment.lean`.
-/

namespace Sidermit

variable {K : Type}

/-- `(edge.node1.id, edge.node2.id) for edge in graph_obj.get_edges()` -/
def Graph.edgeIds (g : Graph K) : List (Int × Int) :=
  g.edges.filterMap fun e =>
    match g.nodes[e.node1]?, g.nodes[e.node2]? with
    | some a, some b => some (a.id, b.id)
    | _, _ => none

section Costs

variable [Field K] [LinearOrder K]

/-! ### constraints -/

/-- constrains.py:13-29 `most_loaded_section_constrains` -/
def kConstrains (routes : List (Route K)) (most : Dict Str K) : List K :=
  routes.map fun r => most.getD r.id 0 - r.mode.kmax

/-- constrains.py:59-62 and 64-67: one pass of the loop over a sequence of nodes; `q` is `f[route.id] / mode.d` -/
def crossStep (e : Int × Int) (q : K) (sum : K) (p : Int × Int) : K :=
  if showInt e.1 = showInt p.1 ∧ showInt e.2 = showInt p.2 then sum + q else sum

/-- constrains.py:53-67: one route.  The divisor `mode.d` is not zero here, see `fmaxEntry`. -/
def flowStep (m : Mode K) (f : Dict Str K) (e : Int × Int) (sum : K) (r : Route K) : K :=
  if r.mode = m then
    if f.getD r.id 0 ≠ 0 then
      (pairs r.nodesR).foldl (crossStep e (f.getD r.id 0 / (m.d : K)))
        ((pairs r.nodesI).foldl (crossStep e (f.getD r.id 0 / (m.d : K))) sum)
    else sum
  else sum

/-- constrains.py:50-68: one edge and one mode -/
def fmaxEntry (routes : List (Route K)) (f : Dict Str K) (e : Int × Int) (m : Mode K) : Py K := do
  let fmax ← pyDiv m.fmax (m.d : K)
  return routes.foldl (flowStep m f e) 0 - fmax

/-- constrains.py:47-68: one edge -/
def fmaxEdge (routes : List (Route K)) (modes : List (Mode K)) (f : Dict Str K) (e : Int × Int) : Py (List K) :=
  modes.mapM (fmaxEntry routes f e)

/-- constrains.py:32-70 `fmax_constrains` -/
def fmaxConstrains (g : Graph K) (routes : List (Route K)) (modes : List (Mode K)) (f : Dict Str K) : Py (List K) := do
  let rows ← g.edgeIds.mapM (fmaxEdge routes modes f)
  return rows.flatten

/-! ### infrastructure -/

/-- infrastructure_cost.py:38-47 and 50-58: the loop over a sequence of nodes ends with `ver_sum` true -/
def sequenceUses (e : Int × Int) (seen : List (Int × Int)) (nodes : List Int) : Bool :=
  (pairs nodes).any fun p => decide (p.1 = e.1 ∧ p.2 = e.2 ∧ e ∉ seen)

/-- infrastructure_cost.py:32-60: a route of the mode makes the loop over the routes stop -/
def routeUses (m : Mode K) (f : Dict Str K) (e : Int × Int) (seen : List (Int × Int)) (r : Route K) : Bool :=
  decide (r.mode = m) && decide (f.getD r.id 0 ≠ 0) && (sequenceUses e seen r.nodesI || sequenceUses e seen r.nodesR)

/-- infrastructure_cost.py:30-60: one edge; the lengths built so far and `edge_list` -/
def infraStep (dist : Dict Int (Dict Int K)) (routes : List (Route K)) (f : Dict Str K) (m : Mode K)
    (acc : Dict (Mode K) K × List (Int × Int)) (e : Int × Int) : Dict (Mode K) K × List (Int × Int) :=
  if routes.any (routeUses m f e acc.2) then
    (acc.1.set m (acc.1.getD m 0 + (lookup2 dist e.1 e.2).getD 0 * (m.d : K)), acc.2 ++ [e, (e.2, e.1)])
  else acc

variable [PyMath K]

/-- infrastructure_cost.py:28-60: one mode -/
def infraMode (g : Graph K) (routes : List (Route K)) (f : Dict Str K) (acc : Dict (Mode K) K) (m : Mode K) :
    Dict (Mode K) K :=
  (g.edgeIds.foldl (infraStep g.edgesDistance routes f m) (acc, [])).1

/-- infrastructure_cost.py:11-62 `get_mode_network_distance` -/
def modeDistance (g : Graph K) (routes : List (Route K)) (modes : List (Mode K)) (f : Dict Str K) : Dict (Mode K) K :=
  modes.foldl (infraMode g routes f) []

/-- infrastructure_cost.py:65-82 `get_infrastruture_cost` -/
def infrastructureCost (g : Graph K) (routes : List (Route K)) (modes : List (Mode K)) (f : Dict Str K) : K :=
  (modeDistance g routes modes f).foldl (fun ci p => ci + p.1.c2 * p.2) 0

omit [PyMath K]

/-! ### operators -/

/-- operators_cost.py:30-36 and 39-45: one pass of the loop over a sequence of nodes -/
def travelStep (dist : Dict Int (Dict Int K)) (v : K) (tv : K) (p : Int × Int) : Py K := do
  let q ← pyDiv ((lookup2 dist p.1 p.2).getD 0) v
  return tv + q

/-- operators_cost.py:24-45: the travel time of a route -/
def lineTravelTime (dist : Dict Int (Dict Int K)) (r : Route K) : Py K := do
  let tv ← (pairs r.nodesI).foldlM (travelStep dist r.mode.v) 0
  (pairs r.nodesR).foldlM (travelStep dist r.mode.v) tv

/-- operators_cost.py:23-47: one route -/
def travelTimeStep (dist : Dict Int (Dict Int K)) (acc : Dict Str K) (r : Route K) : Py (Dict Str K) := do
  let tv ← lineTravelTime dist r
  return acc.set r.id tv

/-- operators_cost.py:14-49 `lines_travel_time` -/
def linesTravelTime (routes : List (Route K)) (dist : Dict Int (Dict Int K)) : Py (Dict Str K) :=
  routes.foldlM (travelTimeStep dist) []

/-- reading `table[key]` of a `defaultdict` inserts the key -/
def touch (d : Dict (LoadKey K) K) (k : LoadKey K) : Dict (LoadKey K) K :=
  if k ∈ Dict.keys d then d else d.set k 0

/-- `for stop in table[route_id][direction]` -/
def stopsIn (d : Dict (LoadKey K) K) (id : Str) (dir : Dir) : List (StopNode K) :=
  (Dict.keys d).filterMap fun k => if k.1 = id ∧ k.2.1 = dir then some k.2.2 else none

/-- the state of the loops of `get_cycle_time`: `tc`, the tables, and the list of processed stops -/
structure Dwell (K : Type) where
  tc : K
  z : Dict (LoadKey K) K
  v : Dict (LoadKey K) K
  done : List (StopNode K)

/-- operators_cost.py:74-75 and 78-79: boarding of a sequential mode -/
def seqBoard (t : K) (id : Str) (dir : Dir) (s : Dwell K) (stop : StopNode K) : Dwell K :=
  { s with tc := s.tc + t * s.z.getD (id, dir, stop) 0 }

/-- operators_cost.py:76-77 and 80-81: alighting of a sequential mode -/
def seqAlight (t : K) (id : Str) (dir : Dir) (s : Dwell K) (stop : StopNode K) : Dwell K :=
  { s with tc := s.tc + t * s.v.getD (id, dir, stop) 0 }

/-- operators_cost.py:72-81 -/
def sequentialDwell (t : K) (id : Str) (s : Dwell K) : Dwell K :=
  let s := (stopsIn s.z id .I).foldl (seqBoard t id .I) s
  let s := (stopsIn s.v id .I).foldl (seqAlight t id .I) s
  let s := (stopsIn s.z id .R).foldl (seqBoard t id .R) s
  (stopsIn s.v id .R).foldl (seqAlight t id .R) s

/-- operators_cost.py:88-90 and 94-96: the loop over the stops where passengers board a simultaneous mode -/
def simBoard (t : K) (id : Str) (dir : Dir) (s : Dwell K) (stop : StopNode K) : Dwell K :=
  { s with
    tc := s.tc + t * max (s.z.getD (id, dir, stop) 0) (s.v.getD (id, dir, stop) 0)
    v := touch s.v (id, dir, stop)
    done := s.done ++ [stop] }

/-- operators_cost.py:91-93 and 97-99: the loop over the stops where passengers alight -/
def simAlight (t : K) (id : Str) (dir : Dir) (s : Dwell K) (stop : StopNode K) : Dwell K :=
  if stop ∈ s.done then s
  else { s with
    tc := s.tc + t * max (s.z.getD (id, dir, stop) 0) (s.v.getD (id, dir, stop) 0)
    z := touch s.z (id, dir, stop) }

/-- operators_cost.py:88-93 and 94-99: one direction.  `done` is `processed_stop_i` and then `processed_stop_r`. -/
def simDirection (t : K) (id : Str) (dir : Dir) (s : Dwell K) : Dwell K :=
  let s := { s with done := [] }
  let s := (stopsIn s.z id dir).foldl (simBoard t id dir) s
  (stopsIn s.v id dir).foldl (simAlight t id dir) s

/-- operators_cost.py:84-99 -/
def simultaneousDwell (t : K) (id : Str) (s : Dwell K) : Dwell K := simDirection t id .R (simDirection t id .I s)

/-- operators_cost.py:66-99: the cycle time of a route, and the tables afterwards -/
def routeCycle (times : Dict Str K) (r : Route K) (z v : Dict (LoadKey K) K) : Dwell K :=
  let t := r.mode.t / 3600
  let s : Dwell K := ⟨times.getD r.id 0, z, v, []⟩
  let s := if r.mode.bya = 0 then sequentialDwell t r.id s else s
  if r.mode.bya = 1 then simultaneousDwell t r.id s else s

/-- the tables and the times after a call of `get_cycle_time` -/
structure Cycles (K : Type) where
  time : Dict Str K
  z : Dict (LoadKey K) K
  v : Dict (LoadKey K) K

/-- operators_cost.py:65-101: one route -/
def cycleStep (times : Dict Str K) (s : Cycles K) (r : Route K) : Cycles K :=
  let d := routeCycle times r s.z s.v
  ⟨s.time.set r.id d.tc, d.z, d.v⟩

/-- operators_cost.py:52-103 `get_cycle_time` -/
def getCycleTime (z v : Dict (LoadKey K) K) (routes : List (Route K)) (times : Dict Str K) : Cycles K :=
  routes.foldl (cycleStep times) ⟨[], z, v⟩

/-- operators_cost.py:119-134: one route -/
def operatorStep (cycle f k : Dict Str K) (co : K) (r : Route K) : K :=
  if f.getD r.id 0 = 0 then co
  else co + (r.mode.co + r.mode.c1 * k.getD r.id 0) * f.getD r.id 0 * cycle.getD r.id 0

/-- operators_cost.py:106-136 `get_operators_cost` -/
def operatorsCost (routes : List (Route K)) (cycle f k : Dict Str K) : K := routes.foldl (operatorStep cycle f k) 0

end Costs

end Sidermit
