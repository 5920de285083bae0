import Verif.Model.Costs
import Verif.Model.Demand
import Verif.Model.UsersCost

/-!
Model of `sidermit/optimization/optimizer.py`.

`scipy.optimize.minimize` is an arbitrary function of the number of the call and of the optimizer object, so nothing is
assumed about it, not even that it gives the same result twice.  Dictionaries handed in by the user are `defaultdict(float)`,
as documented.  The text reports (`string_*`, `write_file_*`) and logging are not modelled.
-/

namespace Sidermit

variable {K : Type}

/-- optimizer.py:44-80: the attributes of an `Optimizer`.  `lines` is `lines_position` (its keys are 0, 1, ...); `pairs` holds
`hyperpaths`, `labels`, `successors`, `frequency`, `Vij` and `assignment` of each pair of origin and destination. -/
structure Optimizer (K : Type) where
  graph : Graph K
  demand : Demand K
  pas : Passenger K
  net : Network K
  f : Dict Str K
  fopt : List K
  lines : List Str
  ext : ExtGraph K
  pairs : List (ODResult K × Dict (StopNode K) K)

/-- the attributes of an `OptimizeResult` that are used, in the order of the tuples of `list_res`; `success` is `none` for the
text "initialization" -/
structure Res (K : Type) where
  x : List K
  success : Option Bool
  status : Int
  message : Str
  viol : K
  fn : WithTop K
  deriving DecidableEq

section Vector

variable [Field K] [LinearOrder K]

/-- optimizer.py:93-103: the state of the loops -/
structure Start (K : Type) where
  f : Dict Str K
  fopt : List K
  lines : List Str
  deriving DecidableEq, Repr

/-- optimizer.py:93-97: one route, without given frequencies -/
def startStep (s : Start K) (r : Route K) : Start K :=
  ⟨s.f.set r.id r.mode.fini, s.fopt ++ [r.mode.fini], s.lines ++ [r.id]⟩

/-- optimizer.py:99-103: one route, with given frequencies -/
def startStepWith (f : Dict Str K) (s : Start K) (r : Route K) : Start K :=
  ⟨s.f.set r.id (f.getD r.id 0), s.fopt ++ [r.mode.fini], s.lines ++ [r.id]⟩

/-- optimizer.py:82-105 `f0` -/
def f0 (routes : List (Route K)) (f : Option (Dict Str K)) : Start K :=
  match f with
  | none => routes.foldl startStep ⟨[], [], []⟩
  | some f => routes.foldl (startStepWith f) ⟨[], [], []⟩

/-- optimizer.py:115-117: one pass of the loop; a missing key of `defaultdict(None)` raises -/
def foptStep (lines : List Str) (f : Dict Str K) (p : K × Nat) : Py (Dict Str K) :=
  match lines[p.2]? with
  | none => .error .KeyError
  | some id => .ok (f.set id p.1)

/-- optimizer.py:107-118 `fopt_to_f` -/
def foptToF (lines : List Str) (fopt : List K) : Py (Dict Str K) := fopt.zipIdx.foldlM (foptStep lines) []

/-- optimizer.py:121-130 `get_k` -/
def getK (load : Dict (LoadKey K) K) : Dict Str K := (mostLoaded load).foldl (fun k p => k.set p.1 p.2) []

end Vector

section Cost

variable [Field K] [LinearOrder K] [PyMath K]

/-- the loading with the hyperpaths of an optimizer; the number of rounds is enough, see `C44_terminates` -/
def Optimizer.loads (o : Optimizer K) (f : Dict Str K) : Py (Loads K) := getLoads (allNodes o.ext.nodes).length f o.pairs

/-- optimizer.py:132-150 `operators_cost`: the cost, and the tables, in which reading has inserted keys -/
def Optimizer.operatorsCost (o : Optimizer K) (z v : Dict (LoadKey K) K) (f k : Dict Str K) : Py (K × Cycles K) := do
  let times ← linesTravelTime o.net.routes o.graph.edgesDistance
  let c := getCycleTime z v o.net.routes times
  return (Sidermit.operatorsCost o.net.routes c.time f k, c)

/-- optimizer.py:201-219 `VRC` with the frequencies as a dictionary: the three costs.  The last is computed with the tables as
they are after the first. -/
def Optimizer.costs (o : Optimizer K) (f : Dict Str K) (t : Loads K) : Py (K × K × K) := do
  let co ← o.operatorsCost t.z t.v f (getK t.load)
  let cu ← usersCost (allNodes o.ext.nodes).length f o.ext o.pas co.2.z co.2.v o.pairs
  return (co.1, infrastructureCost o.graph o.net.routes o.net.modes f, cu)

/-- optimizer.py:201-219 `VRC` -/
def Optimizer.vrc (o : Optimizer K) (fopt : List K) : Py K := do
  let f ← foptToF o.lines fopt
  let t ← o.loads f
  let c ← o.costs f t
  return c.1 + c.2.1 + c.2.2

/-- optimizer.py:221-245 `get_constrains` -/
def Optimizer.constrains (o : Optimizer K) (fopt : List K) : Py (List K) := do
  let f ← foptToF o.lines fopt
  let t ← o.loads f
  let fs ← fmaxConstrains o.graph o.net.routes o.net.modes f
  return kConstrains o.net.routes (mostLoaded t.load) ++ fs

/-- the width `p` of `get_parameters()`; every way to build a city sets it -/
def widthOf (g : Graph K) : Py K :=
  match g.p with
  | none => .error .TypeError
  | some p => .ok p

/-- optimizer.py:44-80 `Optimizer.__init__`, but for the constraints evaluated at the end -/
def Optimizer.prepare (g : Graph K) (d : Demand K) (pas : Passenger K) (net : Network K) (f : Option (Dict Str K)) :
    Py (Optimizer K) := do
  let s := f0 net.routes f
  let x ← buildExtGraph g net.routes pas.pt (some s.f)
  let res ← allHyperpaths x.nodes x.edges pas d.matrix
  let p ← widthOf g
  let shares ← getAssignment res p pas.va pas.pa pas.pv
  return ⟨g, d, pas, net, s.f, s.fopt, s.lines, x, res.zip shares⟩

/-- optimizer.py:44-80 `Optimizer.__init__` -/
def Optimizer.init (g : Graph K) (d : Demand K) (pas : Passenger K) (net : Network K) (f : Option (Dict Str K)) :
    Py (Optimizer K) := do
  let o ← Optimizer.prepare g d pas net f
  let _ ← o.constrains o.fopt
  return o

end Cost

section External

variable [Field K] [LinearOrder K]

/-- optimizer.py:301-302: one pass of the loop -/
def gapStep (new : List K) (dif : K) (p : K × Nat) : Py K :=
  match new[p.2]? with
  | none => .error .IndexError
  | some y => .ok (dif + |p.1 - y|)

/-- optimizer.py:293-305 `f_distance` -/
def fDistance (prev new : List K) : Py K := prev.zipIdx.foldlM (gapStep new) 0

/-- optimizer.py:307-319 `external_optimization_tolerance` -/
def withinTolerance (prev new : List K) (tol : K) : Py Bool := do
  let d ← fDistance prev new
  return decide (tol > |d|)

/-- optimizer.py:322-348 `status_optimization` -/
def statusOptimization (r : Option (Res K)) : Py Bool := do
  match r with
  | none => .error .NoOptimalSolutionFound
  | some r =>
    raiseIf (∃ f ∈ r.x, f < -(1 / 10)) .NegativeFrequency
    raiseIf (|r.viol| > 1 / 10) .ConstraintViolation
    raiseIf (r.status = 0 ∨ r.status = 3) .NoOptimalSolutionFound
    return true

/-- optimizer.py:417-424: the condition of the first loop -/
def Res.valid (r : Res K) : Bool :=
  decide (r.status ∉ [0, 3, -1]) && decide (|r.viol| < 1 / 1000) && r.x.all fun f => !decide (f < 0)

/-- optimizer.py:428-431: one pass of the second loop; `max_fun` and `better_result` -/
def betterStep (acc : WithTop K × Option (Res K)) (r : Res K) : WithTop K × Option (Res K) :=
  if r.fn < acc.1 then (r.fn, some r) else acc

/-- optimizer.py:414-433 `get_better_result` -/
def betterResult (l : List (Res K)) : Option (Res K) := ((l.filter Res.valid).foldl betterStep (⊤, none)).2

/-- optimizer.py:398-404 -/
def truncate (x : List K) : List K := x.map fun y => if y < 1 / 24 then 0 else y

/-- the first element of `list_res` -/
def initialRes (fopt : List K) : Res K := ⟨fopt, none, -1, "initialization".toList, -1, (-1 : K)⟩

/-- the end of the loop: the results, and why it ended -/
structure Ended (K : Type) where
  list : List (Res K)
  pre : List K
  new : List K

/-- optimizer.py:384-394: the loop; `i` is `iteration`, `make` and `solve` are the constructor and `internal_optimization` -/
def externalLoop (make : Dict Str K → Py (Optimizer K)) (solve : Nat → Optimizer K → Py (Res K)) (tol : K) (limit : Option Int) :
    Nat → Nat → Optimizer K → List K → List K → List (Res K) → Py (Ended K)
  | 0, _, _, _, _, _ => .error .Diverges
  | fuel + 1, i, o, pre, new, l => do
    let stop ← withinTolerance pre new tol
    if stop = true ∨ ∃ n ∈ limit, n < (i : Int) then return ⟨l, pre, new⟩
    else
      let f ← foptToF o.lines new
      let o' ← make f
      let r ← solve i o'
      externalLoop make solve tol limit fuel (i + 1) o' new r.x (l ++ [r])

variable [PyMath K]

/-- optimizer.py:369-394: all the results, in the order of `list_res` -/
def externalResults (g : Graph K) (d : Demand K) (pas : Passenger K) (net : Network K) (f : Option (Dict Str K)) (tol : K)
    (limit : Option Int) (solve : Nat → Optimizer K → Py (Res K)) (fuel : Nat) : Py (Ended K) := do
  let o ← Optimizer.init g d pas net f
  let r ← solve 0 o
  externalLoop (fun f => Optimizer.init g d pas net (some f)) solve tol limit fuel 1 o o.fopt r.x [initialRes o.fopt, r]

omit [PyMath K] in
/-- optimizer.py:396-411: the result chosen, and its truncation -/
def finishBest (l : List (Res K)) : Py (Res K) := do
  match betterResult l with
  | none =>
    let _ ← statusOptimization (K := K) none
    .error .TypeError
  | some r =>
    let r : Res K := ⟨truncate r.x, r.success, r.status, r.message, r.viol, r.fn⟩
    let _ ← statusOptimization (some r)
    return r

/-- optimizer.py:351-411 `external_optimization`; `fuel` bounds the passes of the loop -/
def externalOptimization (g : Graph K) (d : Demand K) (pas : Passenger K) (net : Network K) (f : Option (Dict Str K)) (tol : K)
    (limit : Option Int) (solve : Nat → Optimizer K → Py (Res K)) (fuel : Nat) : Py (Res K) := do
  let e ← externalResults g d pas net f tol limit solve fuel
  finishBest e.list

/-- optimizer.py:436-461 `network_optimization`: the object and its attribute `better_res` -/
def networkOptimization (g : Graph K) (d : Demand K) (pas : Passenger K) (net : Network K) (f : Option (Dict Str K)) (tol : K)
    (limit : Option Int) (solve : Nat → Optimizer K → Py (Res K)) (fuel : Nat) : Py (Optimizer K × Res K) := do
  let o ← Optimizer.init g d pas net f
  let r ← externalOptimization g d pas net f tol limit solve fuel
  let _ ← foptToF o.lines r.x
  return (o, r)

end External

end Sidermit
