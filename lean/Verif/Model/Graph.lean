import Verif.Base
import Verif.Text

/-!
Model of `sidermit/city/graph.py`.

Python objects shared by reference (the node list, the zones and the edges all point to the same `Node` objects) are
represented by *indices into the node list*.  Numbers are elements of a linearly ordered field `K`; the transcendental
functions come from the class `PyMath`.
-/

namespace Sidermit

/-- `math.sqrt`, `math.cos(math.radians(.))`, `math.sin(math.radians(.))`, `math.degrees(math.acos(.))`.
The domain errors of `math.sqrt` and `math.acos` are not modelled: in exact arithmetic the arguments used by the code
(sums of squares, normalised dot products) are always in the domain. -/
class PyMath (K : Type) where
  sqrt : K → K
  cosDeg : K → K
  sinDeg : K → K
  acosDeg : K → K

/-- `str(.)`/`format` of a number and `float(.)` of a text (`none` is `ValueError`). -/
class NumText (K : Type) where
  fmt : K → Str
  parse : Str → Option K

/-- the three subclasses of `Node`: graph.py:61, 81, 99 -/
inductive Kind
  | cbd | periphery | subcenter
  deriving DecidableEq, Repr

/-- graph.py:24-58 `Node` (with its class). -/
structure Node (K : Type) where
  id : Int
  x : K
  y : K
  radius : K
  angle : K
  width : K
  zone : Int
  name : Str
  kind : Kind
  deriving DecidableEq, Repr

/-- graph.py:117-142 `Zone`; the two nodes are indices into the node list. -/
structure Zone where
  id : Int
  periphery : Nat
  subcenter : Nat
  deriving DecidableEq, Repr

/-- graph.py:145-165 `Edge`; the two nodes are indices into the node list. -/
structure Edge where
  id : Nat
  node1 : Nat
  node2 : Nat
  deriving DecidableEq, Repr

/-- graph.py:179-202 `Graph.__init__`.  `__nodes_id` is always the list of ids of `__nodes`, `__edges_id` the list of
ids of `__edges` and `__cbd_exist` is never read: they are not stored. -/
structure Graph (K : Type) where
  nodes : List (Node K)
  zones : List Zone
  edges : List Edge
  n : Option Int
  l : Option K
  g : Option K
  p : Option K
  etha : Option K
  ethaZone : Option Int
  angles : Option (List K)
  gi : Option (List K)
  hi : Option (List K)
  deriving DecidableEq, Repr

variable {K : Type}

/-- graph.py:179-202 -/
def Graph.empty : Graph K :=
  { nodes := [], zones := [], edges := [], n := none, l := none, g := none, p := none, etha := none,
    ethaZone := none, angles := none, gi := none, hi := none }

variable [Field K] [LinearOrder K]

/-- graph.py:39-58 (`Node.__init__`), 76-78 (`CBD.__init__`), 96, 114.  The `is None` checks on name, id and zone are
ruled out by the types. -/
def mkNode (kind : Kind) (id : Int) (x y radius angle width : K) (zone : Int) (name : Str) : Py (Node K) := do
  raiseIf (kind = .cbd ∧ zone ≠ 0) .ZoneIdIsNotValid
  raiseIf (radius < 0) .NodeRadiusIsNotValid
  raiseIf (angle < 0 ∨ angle > 360) .NodeAngleIsNotValid
  raiseIf (width < 0) .NodeWidthIsNotValid
  return { id, x, y, radius, angle, width, zone, name, kind }

/-- graph.py:127-142 `Zone.__init__`; `none` is the Python `None` (not an instance of the class). -/
def mkZone (zid : Int) (p sc : Option (Node K)) (pIdx scIdx : Nat) : Py Zone := do
  raiseIf (zid ≤ 0) .ZoneIdIsNotValid
  match p with
  | none => throw .PeripheryNodeTypeIsNotValid
  | some p =>
    raiseIf (p.kind ≠ .periphery) .PeripheryNodeTypeIsNotValid
    match sc with
    | none => throw .SubcenterNodeTypeIsNotValid
    | some sc =>
      raiseIf (sc.kind ≠ .subcenter) .SubcenterNodeTypeIsNotValid
      raiseIf (p.zone ≠ zid ∨ sc.zone ≠ zid) .ZoneIdIsNotValid
      return { id := zid, periphery := pIdx, subcenter := scIdx }

/-- graph.py:155-165 `Edge.__init__`, on the classes of the two nodes. -/
def mkEdge (nodes : List (Node K)) (id : Nat) (i j : Nat) : Py Edge := do
  let k1 := (nodes[i]?).map Node.kind
  let k2 := (nodes[j]?).map Node.kind
  raiseIf (k1 = some .periphery ∧ k2 = some .periphery) .EdgeIsNotAvailable
  raiseIf (k1 = some .periphery ∧ k2 = some .cbd) .EdgeIsNotAvailable
  raiseIf (k1 = some .cbd ∧ k2 = some .periphery) .EdgeIsNotAvailable
  return { id, node1 := i, node2 := j }

/-- graph.py:741-787: the node pairs in the order in which `__build_edges` adds them (index 0 is `self.__nodes[0]`). -/
def edgePairs (zones : List Zone) : List (Nat × Nat) :=
  let p := fun i => (zones[i]?.map Zone.periphery).getD 0
  let sc := fun i => (zones[i]?.map Zone.subcenter).getD 0
  if zones.length = 1 then
    [(p 0, sc 0), (sc 0, p 0), (sc 0, 0), (0, sc 0)]
  else if zones.length = 2 then
    [(p 0, sc 0), (sc 0, p 0), (sc 0, 0), (0, sc 0), (sc 0, sc 1), (sc 1, sc 0),
     (p 1, sc 1), (sc 1, p 1), (sc 1, 0), (0, sc 1)]
  else if zones.length > 2 then
    (List.range zones.length).flatMap fun i =>
      let j := if i = zones.length - 1 then 0 else i + 1
      [(p i, sc i), (sc i, p i), (sc i, 0), (0, sc i), (sc i, sc j), (sc j, sc i)]
  else []

/-- graph.py:732-796 `__build_edges` with `__add_edge`: edges are rebuilt from scratch, `edge_id = len(edges) + 1`. -/
def buildEdges (g : Graph K) : Py (Graph K) := do
  let es ← (edgePairs g.zones).foldlM (init := ([] : List Edge)) fun es pr => do
    let e ← mkEdge g.nodes (es.length + 1) pr.1 pr.2
    return es ++ [e]
  return { g with edges := es }

/-- graph.py:682-690 `__add_cbd` -/
def addCbd (g : Graph K) (c : Node K) : Graph K := { g with nodes := g.nodes ++ [c] }

/-- graph.py:715-730 `__add_nodes` -/
def addNodes (g : Graph K) (p sc : Node K) : Py (Graph K) := do
  raiseIf (p.id ∈ g.nodes.map Node.id ∨ sc.id ∈ g.nodes.map Node.id) .NodeIdDuplicated
  return { g with nodes := g.nodes ++ [p, sc] }

/-- graph.py:692-713 `__add_zone` -/
def addZone (g : Graph K) (p sc : Option (Node K)) (zid : Option Int) : Py (Graph K) := do
  raiseIf (g.nodes.length = 0) .CBDDoesNotExist
  let zid := zid.getD (g.zones.length + 1)
  let z ← mkZone zid p sc g.nodes.length (g.nodes.length + 1)
  let g := { g with zones := g.zones ++ [z] }
  match p, sc with
  | some p, some sc =>
    let g ← addNodes g p sc
    buildEdges g
  | _, _ => throw .AttributeError  -- unreachable: `mkZone` has already raised

/-- graph.py:293-310: the common shape of the three checks on a list parameter. -/
def checkList (n : Int) (xs : Option (List K)) (bad : K → Prop) [DecidablePred bad] (eLen eVal : PyErr) : Py Unit :=
  match xs with
  | none => .ok ()
  | some xs => do
    raiseIf ((xs.length : Int) ≠ n) eLen
    raiseIf (∃ a ∈ xs, bad a) eVal

/-- graph.py:283-292: the checks on `etha` and `etha_zone`. -/
def checkEtha (n : Int) (etha : Option K) (ethaZone : Option Int) : Py Unit :=
  match etha, ethaZone with
  | none, none => .ok ()
  | none, some _ => .error .EthaValueRequired
  | some _, none => .error .EthaZoneValueRequired
  | some e, some z => do
    raiseIf (e < 0 ∨ e > 1) .EthaValueIsNotValid
    raiseIf (z ≤ 0 ∨ z > n) .EthaZoneValueIsNotValid

/-- graph.py:257-311 `parameters_validator` (the `isinstance(., int)` checks are ruled out by the types). -/
def parametersValidator (n : Int) (l g p : K) (etha : Option K) (ethaZone : Option Int)
    (angles gi hi : Option (List K)) : Py Unit := do
  raiseIf (n < 0) .NIsNotValidNumber
  raiseIf (l < 0) .LIsNotValidNumber
  raiseIf (g < 0) .GIsNotValidNumber
  raiseIf (p < 0) .PIsNotValidNumber
  checkEtha n etha ethaZone
  checkList n angles (fun a => a < 0 ∨ a > 360) .AngleListLengthIsNotValid .AngleValueIsNotValid
  checkList n gi (fun a => a < 0) .GiListLengthIsNotValid .GiValueIsNotValid
  checkList n hi (fun a => a < 0) .HiListLengthIsNotValid .HiValueIsNotValid

variable [PyMath K]

/-- graph.py:508-516 `get_xy` -/
def getXY (radius angle : K) : K × K := (radius * PyMath.cosDeg angle, radius * PyMath.sinDeg angle)

/-- graph.py:478-505 `get_angle` -/
def getAngle (x y : K) : Py K := do
  if x = 0 ∧ y = 0 then return 0
  let dot := 1 * x + 0 * y
  let modv := PyMath.sqrt (1 * 1 + 0 * 0 : K) * PyMath.sqrt (x * x + y * y)
  let c ← pyDiv dot modv
  let deg := PyMath.acosDeg c
  if y < 0 then
    if x ≥ 0 then return 360 - deg
    else return (180 - deg) + 180
  return deg

/-- `self.__nodes[i].attr = ...` on the node referenced by index `i` -/
def Graph.modifyNode (g : Graph K) (i : Nat) (f : Node K → Node K) : Graph K :=
  { g with nodes := g.nodes.modify i f }

/-- `lst[i]` -/
def pyGet {α : Type} (xs : List α) (i : Nat) : Py α :=
  match xs[i]? with
  | some a => .ok a
  | none => .error .IndexError

/-- graph.py:896-925: body of the loop of `__angles_asymmetry` for zone position `i`.  The search of the node list for
the identical object and the assignments through `self.__zones[i]` hit the same object: one update per node. -/
def anglesStep (angles : List K) (g : Graph K) (i : Nat) : Py (Graph K) := do
  let ang ← pyGet angles i
  let z ← pyGet g.zones i
  let p ← pyGet g.nodes z.periphery
  let sc ← pyGet g.nodes z.subcenter
  let xyp := getXY p.radius ang
  let xysc := getXY sc.radius ang
  let g := g.modifyNode z.periphery fun nd => { nd with x := xyp.1, y := xyp.2, angle := ang }
  return g.modifyNode z.subcenter fun nd => { nd with x := xysc.1, y := xysc.2, angle := ang }

/-- graph.py:888-928 `__angles_asymmetry` -/
def anglesAsymmetry (g : Graph K) (angles : List K) : Py (Graph K) := do
  let g ← (List.range g.zones.length).foldlM (anglesStep angles) g
  buildEdges g

/-- graph.py:864-883: body of the loop of `__Gi_asymmetry` -/
def giStep (gi : List K) (g : Graph K) (i : Nat) : Py (Graph K) := do
  let a ← pyGet gi i
  let z ← pyGet g.zones i
  let sc ← pyGet g.nodes z.subcenter
  let r := a * sc.radius
  let xy := getXY r sc.angle
  return g.modifyNode z.subcenter fun nd => { nd with x := xy.1, y := xy.2, radius := r }

/-- graph.py:855-886 `__Gi_asymmetry` -/
def giAsymmetry (g : Graph K) (gi : List K) : Py (Graph K) := do
  let g ← (List.range g.zones.length).foldlM (giStep gi) g
  buildEdges g

/-- graph.py:831-850: body of the loop of `__Hi_asymmetry` -/
def hiStep (hi : List K) (g : Graph K) (i : Nat) : Py (Graph K) := do
  let a ← pyGet hi i
  let z ← pyGet g.zones i
  let p ← pyGet g.nodes z.periphery
  let r := a * p.radius
  let xy := getXY r p.angle
  return g.modifyNode z.periphery fun nd => { nd with x := xy.1, y := xy.2, radius := r }

/-- graph.py:823-853 `__Hi_asymmetry` -/
def hiAsymmetry (g : Graph K) (hi : List K) : Py (Graph K) := do
  let g ← (List.range g.zones.length).foldlM (hiStep hi) g
  buildEdges g

/-- graph.py:798-821 `__etha_asymmetry` (`etha_zone ≥ 1` has been validated, so no negative index) -/
def ethaAsymmetry (g : Graph K) (etha : K) (ethaZone : Int) : Py (Graph K) := do
  let z ← pyGet g.zones (ethaZone - 1).toNat
  let sc ← pyGet g.nodes z.subcenter
  let r := etha * sc.radius
  let xy := getXY r sc.angle
  let g := { g with nodes := g.nodes.map fun nd =>
    if nd.kind = .cbd then { nd with x := xy.1, y := xy.2, radius := r, angle := sc.angle } else nd }
  buildEdges g

/-- graph.py:347-365: body of the zone loop of `build_from_parameters` -/
def zoneStep (n : Int) (l gg p : K) (g : Graph K) (zone : Nat) : Py (Graph K) := do
  let rp := l + gg * l
  let rsc := l
  let q ← pyDiv (360 : K) (n : K)
  let ang := q * (zone : K)
  let xyp := getXY rp ang
  let xysc := getXY rsc ang
  let pn ← mkNode .periphery (2 * zone + 1) xyp.1 xyp.2 rp ang p (zone + 1) ("P_".toList ++ showInt (zone + 1))
  let scn ← mkNode .subcenter (2 * zone + 2) xysc.1 xysc.2 rsc ang p (zone + 1) ("SC_".toList ++ showInt (zone + 1))
  addZone g (some pn) (some scn) (some ((zone : Int) + 1))

/-- `if xs is not None: f(xs)` -/
def whenSome {α : Type} (g : Graph K) (xs : Option α) (f : Graph K → α → Py (Graph K)) : Py (Graph K) :=
  match xs with
  | none => .ok g
  | some a => f g a

/-- graph.py:377-378 -/
def whenEtha (g : Graph K) (etha : Option K) (ethaZone : Option Int) : Py (Graph K) :=
  match etha, ethaZone with
  | some e, some z => ethaAsymmetry g e z
  | _, _ => .ok g

/-- graph.py:314-390 `build_from_parameters` -/
def buildFromParameters (n : Int) (l gg p : K) (etha : Option K) (ethaZone : Option Int)
    (angles gi hi : Option (List K)) : Py (Graph K) := do
  parametersValidator n l gg p etha ethaZone angles gi hi
  let cbd ← mkNode .cbd 0 0 0 0 0 p 0 "CBD".toList
  let g := addCbd Graph.empty cbd
  let g ← (List.range n.toNat).foldlM (zoneStep n l gg p) g
  let g ← whenSome g angles anglesAsymmetry
  let g ← whenSome g gi giAsymmetry
  let g ← whenSome g hi hiAsymmetry
  let g ← whenEtha g etha ethaZone
  return { g with n := some n, l := some l, g := some gg, p := some p, etha := etha, ethaZone := ethaZone,
                  angles := angles, gi := gi, hi := hi }

omit [Field K] [LinearOrder K] [PyMath K] in
/-- graph.py:204-214 `edge_exist` -/
def Graph.edgeExist (g : Graph K) (a b : Int) : Bool :=
  g.edges.any fun e =>
    decide ((g.nodes[e.node1]?).map Node.id = some a ∧ (g.nodes[e.node2]?).map Node.id = some b)

/-- graph.py:473 `((xi - xj) ** 2 + (yi - yj) ** 2) ** 0.5` -/
def nodeDistance (a b : Node K) : K := PyMath.sqrt ((a.x - b.x) ^ 2 + (a.y - b.y) ^ 2)

/-- graph.py:464-473: one pass of the loop of `get_edges_distance` -/
def distStep (nodes : List (Node K)) (d : Dict Int (Dict Int K)) (e : Edge) : Dict Int (Dict Int K) :=
  match nodes[e.node1]?, nodes[e.node2]? with
  | some a, some b => setCell d a.id b.id (nodeDistance a b)
  | _, _ => d

/-- graph.py:456-475 `get_edges_distance` -/
def Graph.edgesDistance (g : Graph K) : Dict Int (Dict Int K) := g.edges.foldl (distStep g.nodes) []

omit [Field K] [LinearOrder K] [PyMath K] in
/-- graph.py:930-940 `get_cbd` -/
def Graph.getCbd (g : Graph K) : Option (Node K) := g.nodes.find? fun nd => nd.kind = .cbd

end Sidermit
