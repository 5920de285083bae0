import Verif.Model.ExtGraph
import Mathlib.Algebra.Order.Monoid.WithTop

/-!
Model of `sidermit/optimization/preoptimization/hyper_path.py`.

The dictionaries `labels`, `labels_inf`, `successor`, `successor_inf` and `frequencies` have an entry for every node of the
extended graph; here they are functions.  `float('inf')` is `⊤`.  The printing functions are in
`Model/PathText`; plotting is not modelled.
-/

namespace Sidermit

variable {K : Type}

/-- the nodes in the order of the loops of hyper_path.py:109-129 -/
def allNodes (nodes : ENodes K) : List (ENode K) :=
  nodes.flatMap fun p => .city p.1 :: p.2.flatMap fun q => .stop q.1 :: q.2.map fun e => .route e.node

/-- hyper_path.py:95-104: the variables of `build_hyperpath_graph`; `done` is `S` -/
structure HState (K : Type) where
  lab : ENode K → WithTop K
  labInf : ENode K → WithTop K
  suc : ENode K → List (EEdge K)
  sucInf : ENode K → Option (EEdge K)
  freq : ENode K → K
  done : List (Option (ENode K))

/-- what `build_hyperpath_graph` reads: the extended graph, the passenger, origin and destination (`None` if not found) -/
structure HInput (K : Type) where
  nodes : ENodes K
  edges : List (EEdge K)
  pas : Passenger K
  origin : Option (CityNode K)
  dest : Option (CityNode K)

/-- the result of `build_hyperpath_graph` -/
structure HResult (K : Type) where
  succ : ENode K → List (EEdge K)
  label : ENode K → WithTop K
  freq : ENode K → K

section Search

variable [Field K] [LinearOrder K]

/-- `min(labels[x], labels_inf[x])` -/
def HState.best (st : HState K) (x : ENode K) : WithTop K := min (st.lab x) (st.labInf x)

/-- hyper_path.py:109-129: the initial labels -/
def initState (dest : Option (CityNode K)) : HState K :=
  { lab := fun x => if some x = dest.map .city then 0 else ⊤
    labInf := fun x => if some x = dest.map .city then 0 else ⊤
    suc := fun _ => [], sucInf := fun _ => none, freq := fun _ => 0, done := [] }

/-- hyper_path.py:136-140: one pass of the search of the minimum -/
def pickStep (st : HState K) (acc : Option (ENode K) × WithTop K) (x : ENode K) : Option (ENode K) × WithTop K :=
  if some x ∉ st.done ∧ st.best x < acc.2 then (some x, st.best x) else acc

/-- hyper_path.py:134-142: the node to be processed and its label -/
def pick (nodes : List (ENode K)) (st : HState K) : Option (ENode K) × WithTop K := nodes.foldl (pickStep st) (none, ⊤)

/-- hyper_path.py:160-165 (and 198-203): the time of an edge; `through` is the node whose city is compared with the
destination -/
def edgeTime (h : HInput K) (e : EEdge K) (through : ENode K) : Py K :=
  match e.type with
  | .alighting =>
    match through with
    | .stop s => if some s.city = h.dest then .ok 0 else .ok e.t
    | _ => .error .AttributeError
  | .access => pyDiv (e.t * h.pas.pa) h.pas.pv
  | _ => .ok e.t

/-- hyper_path.py:171-174: all edges except boarding -/
def relaxInf (e : EEdge K) (t : K) (st : HState K) : HState K :=
  if e.f = none ∧ (t : WithTop K) < st.labInf e.i then
    { st with sucInf := Function.update st.sucInf e.i (some e), labInf := Function.update st.labInf e.i (t : WithTop K) }
  else st

/-- hyper_path.py:178: `i.mode.theta`; only stop nodes have a mode -/
def thetaOf (x : ENode K) : Py K :=
  match x with
  | .stop s => .ok s.mode.theta
  | _ => .error .AttributeError

/-- appending a line to the successors -/
def putLine (st : HState K) (e : EEdge K) (l f : K) : HState K :=
  { st with
    suc := Function.update st.suc e.i (st.suc e.i ++ [e])
    lab := Function.update st.lab e.i (l : WithTop K)
    freq := Function.update st.freq e.i (st.freq e.i + f) }

/-- hyper_path.py:180-185: the first line of a stop -/
def firstLine (h : HInput K) (e : EEdge K) (t f theta : K) (st : HState K) : Py (HState K) := do
  let w ← pyDiv (theta * h.pas.pw) h.pas.pv
  let l ← pyDiv (w + f * t) f
  return putLine st e l f

/-- hyper_path.py:187-191: one more line.  An infinite label with a non-zero frequency does not occur. -/
def moreLine (e : EEdge K) (t f : K) (st : HState K) : Py (HState K) :=
  match st.lab e.i with
  | ⊤ => .error .NotANumber
  | .some l => do
    let l' ← pyDiv (st.freq e.i * l + f * t) (st.freq e.i + f)
    return putLine st e l' f

/-- hyper_path.py:176-191: boarding edges -/
def relaxLine (h : HInput K) (e : EEdge K) (t : K) (st : HState K) : Py (HState K) :=
  match e.f with
  | none => .ok st
  | some f =>
    if (t : WithTop K) < st.lab e.i then do
      let theta ← thetaOf e.i
      if st.freq e.i = 0 ∧ st.lab e.i = ⊤ ∧ f ≠ 0 then firstLine h e t f theta st
      else if f ≠ 0 then moreLine e t f st
      else .ok st
    else .ok st

/-- hyper_path.py:210-212: a line is taken out of the successors; the infinite cases do not occur -/
def dropLine (i : ENode K) (b : EEdge K) (tib : WithTop K) (st : HState K) : Py (HState K) :=
  match tib, st.lab i, b.f with
  | .some t, .some l, some f => do
    let l' ← pyDiv (st.freq i * l - f * t) (st.freq i - f)
    return { st with
      suc := Function.update st.suc i ((st.suc i).erase b)
      lab := Function.update st.lab i (l' : WithTop K)
      freq := Function.update st.freq i (st.freq i - f) }
  | _, _, _ => .error .NotANumber

/-- hyper_path.py:194-212: one pass of the verification of the successors -/
def checkLine (h : HInput K) (e b : EEdge K) (st : HState K) : Py (HState K) :=
  if b = e then .ok st
  else do
    let tb ← edgeTime h b e.j
    if st.best b.j + (tb : WithTop K) ≥ st.lab e.i then dropLine e.i b (st.best b.j + (tb : WithTop K)) st
    else .ok st

/-- hyper_path.py:193-212: the loop over the successors by position, which goes on while elements are removed.  The number
of rounds is at most the length of the list at the start. -/
def verifyLoop (h : HInput K) (e : EEdge K) : Nat → Nat → HState K → Py (HState K)
  | 0, _, st => .ok st
  | fuel + 1, k, st =>
    match (st.suc e.i)[k]? with
    | none => .ok st
    | some b => do
      let st' ← checkLine h e b st
      verifyLoop h e fuel (k + 1) st'

/-- hyper_path.py:158-212: one pass of the loop over `edge_j`; `v` is the label of the node being processed -/
def relaxEdge (h : HInput K) (v : K) (st : HState K) (e : EEdge K) : Py (HState K) := do
  let te ← edgeTime h e e.j
  let st1 := relaxInf e (te + v) st
  let st2 ← relaxLine h e (te + v) st1
  verifyLoop h e (st2.suc e.i).length 0 st2

/-- hyper_path.py:148-153: edges at the city node of the origin are left out -/
def HInput.usable (h : HInput K) (e : EEdge K) : Prop :=
  some e.i ≠ h.origin.map .city ∧ some e.j ≠ h.origin.map .city

instance (h : HInput K) (e : EEdge K) : Decidable (h.usable e) := by unfold HInput.usable; infer_instance

/-- hyper_path.py:145-155: the edges that end in `j` and start outside of `S` -/
def inEdges (h : HInput K) (st : HState K) (j : ENode K) : List (EEdge K) :=
  h.edges.filter fun e => decide (h.usable e ∧ some e.i ∉ st.done ∧ e.j = j)

/-- hyper_path.py:144-212: a node is processed -/
def process (h : HInput K) (st : HState K) (j : ENode K) (v : WithTop K) : Py (HState K) :=
  match v with
  | ⊤ => .error .NotANumber
  | .some v =>
    let st1 := { st with done := st.done ++ [some j] }
    (inEdges h st1 j).foldlM (relaxEdge h v) st1

/-- hyper_path.py:132-212: one pass of the main loop -/
def popStep (h : HInput K) (st : HState K) (_ : Nat) : Py (HState K) :=
  match pick (allNodes h.nodes) st with
  | (none, _) => .ok { st with done := st.done ++ [none] }
  | (some j, v) => process h st j v

/-- hyper_path.py:131-212: the main loop; every pass adds one element to `S`, so the number of passes is the number of
nodes -/
def mainLoop (h : HInput K) : Py (HState K) :=
  (List.range (allNodes h.nodes).length).foldlM (popStep h) (initState h.dest)

/-- hyper_path.py:219-227, 230-244 and 246-253: the successors of a node -/
def finalSucc (st : HState K) (x : ENode K) : List (EEdge K) :=
  if st.lab x < st.labInf x then st.suc x else (st.sucInf x).toList

/-- hyper_path.py:219-224, 230-241 and 246-251: the label of a node; the access time is added at the stops of the origin -/
def finalLabel (h : HInput K) (st : HState K) (x : ENode K) : WithTop K :=
  let l := if st.lab x < st.labInf x then st.lab x else st.labInf x
  match x with
  | .stop s => if some s.city = h.origin then l + ((s.mode.tat / 60 * h.pas.pa / h.pas.pv : K) : WithTop K) else l
  | _ => l

/-- the stop nodes of a city node: `nodes[city_node]` -/
def stopsAt (nodes : ENodes K) (c : Option (CityNode K)) : List (StopNode K) :=
  match c with
  | none => []
  | some c => Dict.keys (nodes.getD c [])

/-- hyper_path.py:214-255: the final dictionaries -/
def finish (h : HInput K) (st : HState K) : Py (HResult K) := do
  let _ ← (stopsAt h.nodes h.origin).mapM fun s => pyDiv (s.mode.tat / 60 * h.pas.pa) h.pas.pv
  return { succ := finalSucc st, label := finalLabel h st, freq := st.freq }

/-- hyper_path.py:83-255 `build_hyperpath_graph` -/
def buildHyperpath (h : HInput K) : Py (HResult K) := do
  let st ← mainLoop h
  finish h st

/-! ### elementary paths -/

/-- hyper_path.py:347-358: one pass of the loop: every path that has not arrived is replaced by its continuations -/
def extendPath (succ : ENode K → List (EEdge K)) (dest : ENode K) (path : List (ENode K)) : List (List (ENode K)) :=
  match path.getLast? with
  | none => []
  | some x => if x ≠ dest then (succ x).map fun e => path ++ [e.j] else [path]

/-- hyper_path.py:334-359: the loop until all paths have arrived; `none` if it has not ended after `fuel` rounds -/
def pathsLoop (succ : ENode K → List (EEdge K)) (dest : ENode K) : Nat → List (List (ENode K)) → Option (List (List (ENode K)))
  | fuel, paths =>
    if paths.all (fun p => p.getLast? = some dest) then some paths
    else match fuel with
      | 0 => none
      | fuel + 1 => pathsLoop succ dest fuel (paths.flatMap (extendPath succ dest))

/-- hyper_path.py:329-362: the paths of one stop of the origin.  The number of rounds is bounded by the number of nodes; a
longer loop would be reported as `Diverges`. -/
def pathsOfStop (h : HInput K) (r : HResult K) (origin dest : CityNode K) (s : StopNode K) : Py (List (List (ENode K))) :=
  match pathsLoop r.succ (.city dest) (allNodes h.nodes).length [[.city origin, .stop s]] with
  | none => .error .Diverges
  | some l => .ok l

/-- hyper_path.py:361-362: the pair stop, paths -/
def pathsEntry (h : HInput K) (r : HResult K) (origin dest : CityNode K) (s : StopNode K) :
    Py (StopNode K × List (List (ENode K))) := do
  let l ← pathsOfStop h r origin dest s
  return (s, l)

/-- hyper_path.py:310-364 `get_hyperpath_OD` for city nodes of the graph.  Stops without path get no entry in the
dictionary. -/
def hyperpathOD (h : HInput K) (origin dest : CityNode K) : Py (HResult K × Dict (StopNode K) (List (List (ENode K)))) := do
  let r ← buildHyperpath { h with origin := some origin, dest := some dest }
  let l ← (stopsAt h.nodes (some origin)).mapM (pathsEntry h r origin dest)
  return (r, l.filter fun p => p.2 ≠ [])

/-! ### validation of the network and all pairs -/

/-- hyper_path.py:50-56 (and 417-423): the (last) city node of the graph with the given id -/
def cityOf (nodes : ENodes K) (id : Int) : Option (CityNode K) :=
  (Dict.keys nodes).foldl (fun acc c => if id = c.node.id then some c else acc) none

/-- hyper_path.py:58-68: there is a connection between the pair -/
def checkPair (nodes : ENodes K) (edges : List (EEdge K)) (pas : Passenger K) (o d : Int) : Py Unit := do
  let origin := cityOf nodes o
  let r ← buildHyperpath ⟨nodes, edges, pas, origin, cityOf nodes d⟩
  raiseIf (¬ ∃ s ∈ stopsAt nodes origin, r.label (.stop s) ≠ ⊤) .TransportNetwork

/-- hyper_path.py:47-68: one pass of the loop over a row of the matrix -/
def checkCell (nodes : ENodes K) (edges : List (EEdge K)) (pas : Passenger K) (o : Int) (p : Int × K) : Py Unit :=
  if p.2 ≠ 0 then checkPair nodes edges pas o p.1 else .ok ()

/-- hyper_path.py:46-68: one pass of the loop over the matrix -/
def checkRow (nodes : ENodes K) (edges : List (EEdge K)) (pas : Passenger K) (p : Int × Dict Int K) : Py Unit :=
  p.2.forM (checkCell nodes edges pas p.1)

/-- hyper_path.py:70-74: the modes of the stop nodes -/
def modesOf (nodes : ENodes K) : List (Mode K) :=
  (stopsOf nodes).foldl (fun l s => if s.mode ∈ l then l else l ++ [s.mode]) []

/-- hyper_path.py:78-79: `mode_manager.add_mode(mode)` -/
def addModePy (s : ModeManager K) (m : Mode K) : Py (ModeManager K) :=
  match s.addMode m with
  | (s', none) => .ok s'
  | (_, some e) => .error e

/-- hyper_path.py:37-81 `network_validator` -/
def networkValidator (nodes : ENodes K) (edges : List (EEdge K)) (pas : Passenger K) (od : Dict Int (Dict Int K)) : Py Bool := do
  od.forM (checkRow nodes edges pas)
  let mgr ← (modesOf nodes).foldlM addModePy { names := [], modes := [] }
  mgr.isValidToAssignmentStep

/-- the results of `get_all_hyperpaths` for one pair -/
structure ODResult (K : Type) where
  origin : CityNode K
  dest : CityNode K
  res : HResult K
  paths : Dict (StopNode K) (List (List (ENode K)))
  vij : K

/-- hyper_path.py:425-455: one pair with trips.  After the validation both city nodes exist. -/
def odResult (nodes : ENodes K) (edges : List (EEdge K)) (pas : Passenger K) (o d : Int) (v : K) : Py (List (ODResult K)) :=
  match cityOf nodes o, cityOf nodes d with
  | some origin, some dest => do
    let r ← hyperpathOD ⟨nodes, edges, pas, none, none⟩ origin dest
    return [⟨origin, dest, r.1, r.2, v⟩]
  | _, _ => .ok []

/-- hyper_path.py:414-455: one cell of the matrix -/
def odCell (nodes : ENodes K) (edges : List (EEdge K)) (pas : Passenger K) (o : Int) (p : Int × K) : Py (List (ODResult K)) :=
  if p.2 ≠ 0 then odResult nodes edges pas o p.1 p.2 else .ok []

/-- hyper_path.py:413-455: one row of the matrix -/
def odRow (nodes : ENodes K) (edges : List (EEdge K)) (pas : Passenger K) (p : Int × Dict Int K) : Py (List (ODResult K)) := do
  let l ← p.2.mapM (odCell nodes edges pas p.1)
  return l.flatten

/-- hyper_path.py:413-455: all rows -/
def odAll (nodes : ENodes K) (edges : List (EEdge K)) (pas : Passenger K) (od : Dict Int (Dict Int K)) :
    Py (List (ODResult K)) := do
  let l ← od.mapM (odRow nodes edges pas)
  return l.flatten

/-- hyper_path.py:393-460 `get_all_hyperpaths` -/
def allHyperpaths (nodes : ENodes K) (edges : List (EEdge K)) (pas : Passenger K) (od : Dict Int (Dict Int K)) :
    Py (List (ODResult K)) := do
  let valid ← networkValidator nodes edges pas od
  if valid then odAll nodes edges pas od else .error .TransportNetworkIsNotValid

end Search

end Sidermit
