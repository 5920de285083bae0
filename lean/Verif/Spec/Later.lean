import Verif.Spec.Assigned
import Verif.Model.Optimizer

/-!
What an optimizer shows after assignments to the attributes of modes.

The constructor of `Optimizer` keeps the network (optimizer.py:61), and the extended graph, the paths and the shares that it computes refer to
the same mode objects (optimizer.py:66, extended_graph.py:49-59, hyper_path.py:425-455), so an assignment to a mode is seen in all of them.  Dictionaries
with nodes as keys go by identity, hence they are read as before.  Numbers that were computed from the attributes, like the times of the
edges, stay.
-/

namespace Sidermit

variable {K : Type}

/-- a stop with the mode as it is now -/
def StopNode.seen (φ : Mode K → Mode K) (s : StopNode K) : StopNode K := ⟨φ s.mode, s.city⟩

/-- a node of a line -/
def RouteNode.seen (φ : Mode K → Mode K) (n : RouteNode K) : RouteNode K :=
  ⟨n.ridx, { n.route with mode := φ n.route.mode }, n.dir, n.pos, n.stop.seen φ⟩

/-- a node -/
def ENode.seen (φ : Mode K → Mode K) : ENode K → ENode K
  | .city c => .city c
  | .stop s => .stop (s.seen φ)
  | .route n => .route (n.seen φ)

/-- an edge; its time and its frequency are numbers -/
def EEdge.seen (φ : Mode K → Mode K) (e : EEdge K) : EEdge K := ⟨e.i.seen φ, e.j.seen φ, e.t, e.f, e.type⟩

/-- the extended graph -/
def ExtGraph.seen (φ : Mode K → Mode K) (x : ExtGraph K) : ExtGraph K :=
  ⟨x.nodes.map fun c => (c.1, c.2.map fun s => (s.1.seen φ, s.2.map fun e => ⟨e.node.seen φ, e.prev.map (RouteNode.seen φ)⟩)),
    x.edges.map (EEdge.seen φ)⟩

/-- the result of the search for a pair: its tables have nodes as keys, `ψ` gives the mode as it was -/
def ODResult.seen (φ ψ : Mode K → Mode K) (e : ODResult K) : ODResult K :=
  ⟨e.origin, e.dest, ⟨fun x => (e.res.succ (x.seen ψ)).map (EEdge.seen φ), fun x => e.res.label (x.seen ψ), fun x => e.res.freq (x.seen ψ)⟩,
    e.paths.map fun p => (p.1.seen φ, p.2.map fun l => l.map (ENode.seen φ)), e.vij⟩

/-- the optimizer whose modes, as they were when it was built, are as `φ` tells now; `ψ` leads back -/
def Optimizer.seen (φ ψ : Mode K → Mode K) (o : Optimizer K) : Optimizer K :=
  { o with
    net := o.net.mapModes φ
    ext := o.ext.seen φ
    pairs := o.pairs.map fun p => (p.1.seen φ ψ, p.2.map fun q => (q.1.seen φ, q.2)) }

/-- an assignment of a price, of the time to board, of the order of boarding and alighting, or of a limit of vehicles or places -/
def ModeAssign.Late : ModeAssign K → Prop
  | .co _ => True
  | .c1 _ => True
  | .c2 _ => True
  | .t _ => True
  | .bya _ => True
  | .fmax _ => True
  | .kmax _ => True
  | _ => False

/-- an assignment of the initial frequency -/
def ModeAssign.Initial : ModeAssign K → Prop
  | .fini _ => True
  | _ => False

variable [Field K] [LinearOrder K]

/-- the objects and the network after several assignments, whether they raise or not -/
def Fleet.assignAll (s : Fleet K) : List (Nat × ModeAssign K) → Fleet K
  | [] => s
  | p :: t => Fleet.assignAll ((FleetStep.assign p.1 p.2).run s).1 t

/-- the values that the objects of `s` have in `s'`, and the other way round -/
def Fleet.turn (s s' : Fleet K) (m : Mode K) : Mode K :=
  if m = s.objects m.oid then s'.objects m.oid else if m = s'.objects m.oid then s.objects m.oid else m

end Sidermit
