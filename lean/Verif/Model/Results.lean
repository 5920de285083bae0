import Verif.Model.Optimizer

/-!
Model of the tables of results of `sidermit/optimization/optimizer.py`, lines 492 to 822.

`better_res` is an argument, `none` before a call of `network_optimization`.  The text reports are in
Model/Report.
-/

namespace Sidermit

variable {K : Type}

/-- optimizer.py:606-609: a row of the table of lines.  `leastLoad` can be infinite, `float("inf")`. -/
structure Row (K : Type) where
  id : Str
  f : K
  perLine : K
  k : K
  fleet : K
  minutes : K
  co : K
  leastLoad : WithTop K
  tableI : List (Int × Int × K)
  tableR : List (Int × Int × K)
  deriving DecidableEq

section Table

variable [Field K] [LinearOrder K]

/-- the loop over `table[route_id][direction]` that is left at the first stop at the node -/
def stopAt (d : Dict (LoadKey K) K) (id : Str) (dir : Dir) (node : Int) : Option (StopNode K) :=
  (stopsIn d id dir).find? fun s => decide (s.city.node.id = node)

/-- optimizer.py:561-564: boardings at one node, 0 without a stop -/
def boardAt (z : Dict (LoadKey K) K) (id : Str) (dir : Dir) (node : Int) : K :=
  match stopAt z id dir node with
  | some s => z.getD (id, dir, s) 0
  | none => 0

/-- optimizer.py:565-568: the loads of the nodes that have one -/
def loadsAlong (load : Dict (LoadKey K) K) (id : Str) (dir : Dir) (nodes : List Int) : List K :=
  nodes.filterMap fun i => (stopAt load id dir i).map fun s => load.getD (id, dir, s) 0

/-- `min(l)` and `max(l)` of a list that is not empty -/
def minOf (l : List K) : K := l.tail.foldl min (l.head?.getD 0)
def maxOf (l : List K) : K := l.tail.foldl max (l.head?.getD 0)

/-- optimizer.py:588-597 (and 691-700): the charge of each node; all are computed, also the last one, which is not used -/
def chargesOf (l : List K) (m : K) (n : Nat) : Py (List K) :=
  (List.range n).mapM fun i =>
    match l[i]? with
    | none => .error .IndexError
    | some x => pyDiv x m

/-- optimizer.py:588-597, 651-661: the rows of a direction: each node with the next one and the charge of the first -/
def sections (nodes : List Int) (charges : List K) : List (Int × Int × K) :=
  (pairs nodes).zipWith (fun p c => (p.1, p.2, |c|)) charges

/-- optimizer.py:576-580: `charge_min` and the list of loads -/
def circularMin (l : List K) (n : Nat) : Py (K × List K) :=
  if l.length ≥ 1 then do
    let q ← pyDiv (minOf l) (maxOf l)
    return (q, l)
  else .ok (0, List.replicate n 1)

/-- optimizer.py:570-574 -/
def circularCost (r : Route K) (cycle f k : Dict Str K) (b : K) : Py K :=
  if b = 0 then .ok 0
  else pyDiv ((r.mode.co + r.mode.c1 * k.getD r.id 0) * f.getD r.id 0 * cycle.getD r.id 0) (b * f.getD r.id 0)

/-- optimizer.py:549-609: a circular route -/
def circularRow (c : Cycles K) (load : Dict (LoadKey K) K) (f k : Dict Str K) (r : Route K) : Py (Row K) := do
  let out := decide (r.nodesI.length > 0)
  let nodes := if out then r.nodesI else r.nodesR
  let dir := if out then Dir.I else Dir.R
  let co ← circularCost r c.time f k (nodes.foldl (fun b i => b + boardAt c.z r.id dir i) 0)
  let m ← circularMin (loadsAlong load r.id dir nodes) nodes.length
  let charges ← chargesOf m.2 (maxOf m.2) nodes.length
  let table := sections nodes charges
  let perLine ← pyDiv (f.getD r.id 0) (r.mode.d : K)
  return ⟨r.id, f.getD r.id 0, perLine, k.getD r.id 0, c.time.getD r.id 0 * f.getD r.id 0, c.time.getD r.id 0 * 60, co,
    ((|m.1| : K) : WithTop K), if out then table else [], if out then [] else table⟩

/-- optimizer.py:611-642: the state of the loops: `total_pax`, `total_b` and the charges -/
structure Charged (K : Type) where
  pax : K
  board : K
  charges : List K

/-- optimizer.py:613-626 and 629-642: one node.  At a stop of the table of boardings, boardings and alightings change the
number of passengers. -/
def chargeStep (z v : Dict (LoadKey K) K) (id : Str) (dir : Dir) (k : K) (s : Charged K) (node : Int) : Py (Charged K) :=
  match stopAt z id dir node with
  | some st => do
    let pax := s.pax + (z.getD (id, dir, st) 0 - v.getD (id, dir, st) 0)
    let q ← pyDiv pax k
    return ⟨pax, s.board + z.getD (id, dir, st) 0, s.charges ++ [q]⟩
  | none => do
    let q ← pyDiv s.pax k
    return ⟨s.pax, s.board, s.charges ++ [q]⟩

/-- optimizer.py:647-681: `charge_min` over the sections -/
def leastOf (acc : WithTop K) (c : K) : WithTop K := if acc > (c : WithTop K) then (c : WithTop K) else acc

/-- `abs` of a number that may be infinite -/
def absTop (c : WithTop K) : WithTop K := WithTop.map (fun x : K => |x|) c

/-- optimizer.py:610-681: a route that is not circular -/
def twoWayRow (c : Cycles K) (f k : Dict Str K) (r : Route K) : Py (Row K) := do
  let a ← r.nodesI.foldlM (chargeStep c.z c.v r.id .I (k.getD r.id 0)) ⟨0, 0, []⟩
  let b ← r.nodesR.foldlM (chargeStep c.z c.v r.id .R (k.getD r.id 0)) ⟨0, a.board, []⟩
  let co ← pyDiv ((r.mode.co + r.mode.c1 * k.getD r.id 0) * f.getD r.id 0 * c.time.getD r.id 0) (b.board * f.getD r.id 0)
  let least := (a.charges.dropLast ++ b.charges.dropLast).foldl leastOf ⊤
  let perLine ← pyDiv (f.getD r.id 0) (r.mode.d : K)
  return ⟨r.id, f.getD r.id 0, perLine, k.getD r.id 0, c.time.getD r.id 0 * f.getD r.id 0, c.time.getD r.id 0 * 60, co,
    absTop least, sections r.nodesI a.charges, sections r.nodesR b.charges⟩

/-- optimizer.py:682-715: a route that does not run -/
def idleRow (r : Route K) : Row K :=
  ⟨r.id, 0, 0, 0, 0, 0, 0, ((0 : K) : WithTop K), sections r.nodesI (List.replicate r.nodesI.length 0),
    sections r.nodesR (List.replicate r.nodesR.length 0)⟩

/-- optimizer.py:533-715: one route -/
def rowOf (c : Cycles K) (load : Dict (LoadKey K) K) (f k : Dict Str K) (r : Route K) : Py (Row K) :=
  if f.getD r.id 0 > 0 then
    if r.type = .circular then circularRow c load f k r else twoWayRow c f k r
  else .ok (idleRow r)

/-- optimizer.py:794-804: per mode, the vehicles, the lines, and the capacities of the vehicles of its routes -/
structure ModeTable (K : Type) where
  fleet : Dict (Mode K) K
  lines : Dict (Mode K) Int
  sizes : Dict (Mode K) (List K)

/-- optimizer.py:800-804: one route -/
def modeStep (cycle f k : Dict Str K) (t : ModeTable K) (r : Route K) : ModeTable K :=
  if f.getD r.id 0 > 0 then
    ⟨t.fleet.set r.mode (t.fleet.getD r.mode 0 + f.getD r.id 0 * cycle.getD r.id 0),
      t.lines.set r.mode (t.lines.getD r.mode 0 + r.mode.d), t.sizes.set r.mode (t.sizes.getD r.mode [] ++ [k.getD r.id 0])⟩
  else t

/-- optimizer.py:806-808: the average; the lists are not empty -/
def averages (sizes : Dict (Mode K) (List K)) : Py (Dict (Mode K) K) :=
  sizes.foldlM (fun d p => do
    let q ← pyDiv p.2.sum (p.2.length : K)
    return d.set p.1 q) []

/-- optimizer.py:810-821: the entries of the table of overall results -/
structure Overall (K : Type) where
  vrc : K
  operators : K
  infrastructure : K
  users : K
  onBoard : K
  waiting : K
  access : K
  transfers : K
  fleet : Dict (Mode K) K
  sizes : Dict (Mode K) K
  lines : Dict (Mode K) Int
  deriving DecidableEq

end Table

section Results

variable [Field K] [LinearOrder K] [PyMath K]

/-- optimizer.py:492-507 `last_iteration`: the frequencies, the optimizer built with them and its tables -/
def Optimizer.lastIteration (o : Optimizer K) (r : Res K) : Py (Dict Str K × Optimizer K × Loads K) := do
  let f ← foptToF o.lines r.x
  let fin ← Optimizer.init o.graph o.demand o.pas o.net (some f)
  let t ← fin.loads f
  return (f, fin, t)

/-- optimizer.py:528-717: the table, once the last iteration is done -/
def Optimizer.rows (fin : Optimizer K) (f : Dict Str K) (t : Loads K) : Py (List (Row K)) := do
  let times ← linesTravelTime fin.net.routes fin.graph.edgesDistance
  fin.net.routes.mapM (rowOf (getCycleTime t.z t.v fin.net.routes times) t.load f (getK t.load))

/-- optimizer.py:509-717 `get_network_results` -/
def Optimizer.networkResults (o : Optimizer K) (best : Option (Res K)) : Py (List (Row K)) := do
  match best with
  | none => .error .NoOptimalSolutionFound
  | some r =>
    let l ← o.lastIteration r
    l.2.1.rows l.1 l.2.2

/-- optimizer.py:775-822: the table, once the last iteration is done.  `fin` has the graph, the demand, the passenger and the
network of the object. -/
def Optimizer.overall (fin : Optimizer K) (f : Dict Str K) (t : Loads K) : Py (Overall K) := do
  let co ← fin.operatorsCost t.z t.v f (getK t.load)
  let ci := infrastructureCost fin.graph fin.net.routes fin.net.modes f
  let cu ← usersCost (allNodes fin.ext.nodes).length f fin.ext fin.pas co.2.z co.2.v fin.pairs
  let u ← resourcesConsumer (allNodes fin.ext.nodes).length f fin.ext fin.pas.va co.2.z co.2.v fin.pairs
  let times ← linesTravelTime fin.net.routes fin.graph.edgesDistance
  let c := getCycleTime co.2.z co.2.v fin.net.routes times
  let m := fin.net.routes.foldl (modeStep c.time f (getK t.load)) ⟨[], [], []⟩
  let sizes ← averages m.sizes
  let n := fin.demand.total
  let vrc ← pyDiv (co.1 + ci + cu) n
  let co' ← pyDiv co.1 n
  let ci' ← pyDiv ci n
  let cu' ← pyDiv cu n
  let tv ← pyDiv u.tv n
  let te ← pyDiv u.te n
  let ta ← pyDiv u.ta n
  let tr ← pyDiv u.t n
  return ⟨vrc, co', ci', cu', tv * 60, te * 60, ta * 60, tr, m.fleet, sizes, m.lines⟩

/-- optimizer.py:746-822 `get_overall_results` -/
def Optimizer.overallResults (o : Optimizer K) (best : Option (Res K)) : Py (Overall K) := do
  match best with
  | none => .error .NoOptimalSolutionFound
  | some r =>
    let l ← o.lastIteration r
    l.2.1.overall l.1 l.2.2

end Results

end Sidermit
