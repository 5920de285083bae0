import Verif.Model.Network

/-!
Model of `sidermit/optimization/preoptimization/extended_graph.py`.

Node and edge objects are compared by identity in the code.  Here a city node is identified by its position in the city
graph, a stop node by its mode and city node, a route node by the position of the route in the given list, the direction
and the position of the stop.  The `id` attributes of nodes and edges, which nothing reads, are
not modelled; `__str__` is in Model/GraphText.  The comparisons `str(a) == str(b)` of integer ids are equality of integers.
-/

namespace Sidermit

variable {K : Type}

/-- extended_graph.py:37-46 `CityNode`; `idx` is its `id` -/
structure CityNode (K : Type) where
  idx : Nat
  node : Node K
  deriving DecidableEq, Repr

/-- extended_graph.py:49-59 `StopNode` -/
structure StopNode (K : Type) where
  mode : Mode K
  city : CityNode K
  deriving DecidableEq, Repr

/-- the two directions "I" and "R" -/
inductive Dir
  | I | R
  deriving DecidableEq, Repr

/-- extended_graph.py:62-76 `RouteNode`; `ridx` is the position of the route in the list of routes and `pos` the position
of the stop in the stop sequence of the direction -/
structure RouteNode (K : Type) where
  ridx : Nat
  route : Route K
  dir : Dir
  pos : Nat
  stop : StopNode K
  deriving DecidableEq, Repr

/-- a route node with its attribute `prev_route_node` -/
structure RouteEntry (K : Type) where
  node : RouteNode K
  prev : Option (RouteNode K)
  deriving DecidableEq, Repr

/-- extended_graph.py:27-34 `ExtendedNode` -/
inductive ENode (K : Type)
  | city (c : CityNode K)
  | stop (s : StopNode K)
  | route (r : RouteNode K)
  deriving DecidableEq, Repr

/-- extended_graph.py:98-107 `ExtendedEdgesType` -/
inductive EType
  | access | boarding | alighting | route
  deriving DecidableEq, Repr

/-- extended_graph.py:79-95 `ExtendedEdge`; the frequency `none` is `float('inf')` -/
structure EEdge (K : Type) where
  i : ENode K
  j : ENode K
  t : K
  f : Option K
  type : EType
  deriving DecidableEq, Repr

/-- the node sequence of a direction -/
def Route.nodesOf (r : Route K) : Dir → List Int
  | .I => r.nodesI
  | .R => r.nodesR

/-- the stop sequence of a direction -/
def Route.stopsOf (r : Route K) : Dir → List Int
  | .I => r.stopsI
  | .R => r.stopsR

/-- `dic[CityNode][StopNode] = List[RouteNode]` -/
abbrev ENodes (K : Type) := Dict (CityNode K) (Dict (StopNode K) (List (RouteEntry K)))

/-- `dic[CityNode][TransportMode] = List(Route, direction)` -/
abbrev TreeGraph (K : Type) := Dict (CityNode K) (Dict (Mode K) (List (Route K × Dir)))

/-! ### nodes -/

/-- extended_graph.py:229-241 `build_city_nodes` -/
def buildCityNodes (g : Graph K) : List (CityNode K) := g.nodes.zipIdx.map fun p => ⟨p.2, p.1⟩

section Tree

variable [DecidableEq K]

/-- extended_graph.py:262-268 and 271-277: `route` stops at the city node -/
def treeAdd (c : CityNode K) (r : Route K) (d : Dir) (tree : TreeGraph K) : TreeGraph K :=
  if (r.type = .predefined ∨ r.type = .circular) ∧ (r, d) ∈ ((tree.getD c []).getD r.mode []) then tree
  else setCell tree c r.mode (((tree.getD c []).getD r.mode []) ++ [(r, d)])

/-- extended_graph.py:261-268 and 270-277: the loop over the stops of one direction -/
def treeStops (c : CityNode K) (r : Route K) (d : Dir) (tree : TreeGraph K) : TreeGraph K :=
  (r.stopsOf d).foldl (fun tree s => if c.node.id = s then treeAdd c r d tree else tree) tree

/-- extended_graph.py:256-277: one pass of the loop over the routes -/
def treeRoute (c : CityNode K) (tree : TreeGraph K) (r : Route K) : TreeGraph K :=
  treeStops c r .R (treeStops c r .I tree)

/-- extended_graph.py:242-279 `build_tree_graph` -/
def buildTreeGraph (routes : List (Route K)) (cities : List (CityNode K)) : TreeGraph K :=
  cities.foldl (fun tree c => routes.foldl (treeRoute c) tree) []

/-- extended_graph.py:292-295: one pass of the inner loop (the list `mode_city` holds the modes and city nodes of the
stop nodes built so far) -/
def addStop (c : CityNode K) (stops : List (StopNode K)) (m : Mode K) : List (StopNode K) :=
  if (⟨m, c⟩ : StopNode K) ∈ stops then stops else stops ++ [⟨m, c⟩]

/-- extended_graph.py:280-296 `build_stop_nodes` -/
def buildStopNodes (tree : TreeGraph K) : List (StopNode K) :=
  tree.foldl (fun stops p => (Dict.keys p.2).foldl (addStop p.1) stops) []

/-- extended_graph.py:318-322: the stop node of a stop of a route -/
def stopFor (stops : List (StopNode K)) (m : Mode K) (id : Int) : Option (StopNode K) :=
  stops.find? fun s => decide (s.mode = m ∧ s.city.node.id = id)

/-- extended_graph.py:317-323: the route node of a stop.  A missing stop node (`None`) raises when the dictionary of nodes
is built (386: `None.city_node`), whatever the other route nodes are. -/
def mkRouteNode (stops : List (StopNode K)) (ridx : Nat) (r : Route K) (d : Dir) (p : Int × Nat) : Py (RouteNode K) :=
  match stopFor stops r.mode p.1 with
  | none => .error .AttributeError
  | some s => .ok ⟨ridx, r, d, p.2, s⟩

/-- the stops of a direction that get a route node, with their positions: in circular routes the first one is left out
(extended_graph.py:328-330) -/
def keptStops (r : Route K) (d : Dir) : List (Int × Nat) :=
  if r.type = .circular then (r.stopsOf d).zipIdx.drop 1 else (r.stopsOf d).zipIdx

/-- extended_graph.py:312-341 and 343-372: the route nodes of one direction and their previous route nodes; in circular
routes the one before the first is the last (333) -/
def directionNodes (stops : List (StopNode K)) (ridx : Nat) (r : Route K) (d : Dir) : Py (List (RouteEntry K)) := do
  let nodes ← (keptStops r d).mapM (mkRouteNode stops ridx r d)
  let first := if r.type = .circular then nodes.getLast? else none
  return List.zipWith RouteEntry.mk nodes (first :: nodes.map some)

/-- extended_graph.py:305-372: one pass of the loop over the routes -/
def routeNodesOf (stops : List (StopNode K)) (p : Route K × Nat) : Py (List (RouteEntry K)) := do
  let i ← directionNodes stops p.2 p.1 .I
  let r ← directionNodes stops p.2 p.1 .R
  return i ++ r

/-- extended_graph.py:298-374 `build_route_nodes` -/
def buildRouteNodes (routes : List (Route K)) (stops : List (StopNode K)) : Py (List (RouteEntry K)) := do
  let l ← routes.zipIdx.mapM (routeNodesOf stops)
  return l.flatten

/-- extended_graph.py:385-388: one pass of the loop -/
def addRouteNode (nodes : ENodes K) (e : RouteEntry K) : ENodes K :=
  setCell nodes e.node.stop.city e.node.stop
    (((nodes.getD e.node.stop.city []).getD e.node.stop []) ++ [e])

/-- extended_graph.py:376-390 `build_extended_graph_nodes` -/
def buildExtendedNodes (entries : List (RouteEntry K)) : ENodes K := entries.foldl addRouteNode []

end Tree

/-! ### edges -/

/-- the stop nodes in the order of the loops `for city_node in nodes: for stop_node in nodes[city_node]` -/
def stopsOf (nodes : ENodes K) : List (StopNode K) := nodes.flatMap fun p => Dict.keys p.2

/-- the route nodes in the order of the nested loops -/
def entriesOf (nodes : ENodes K) : List (RouteEntry K) := nodes.flatMap fun p => p.2.flatMap fun q => q.2

section Edges

variable [Field K]

/-- extended_graph.py:401-406 -/
def accessPair (c : CityNode K) (s : StopNode K) : List (EEdge K) :=
  [⟨.city c, .stop s, s.mode.tat / 60, none, .access⟩, ⟨.stop s, .city c, s.mode.tat / 60, none, .access⟩]

/-- extended_graph.py:392-408 `build_access_edges` -/
def accessEdges (nodes : ENodes K) : List (EEdge K) :=
  nodes.flatMap fun p => (Dict.keys p.2).flatMap (accessPair p.1)

variable [DecidableEq K]

/-- extended_graph.py:433-435 and 440-442 -/
def boardingEdge (freq : Dict Str K) (e : RouteNode K) : Py (EEdge K) := do
  let f ← pyDiv (freq.getD e.route.id 0) (e.route.mode.d : K)
  return ⟨.stop e.stop, .route e, 0, some f, .boarding⟩

/-- extended_graph.py:422-443: one pass of the loop over the route nodes -/
def boardingStep (freq : Dict Str K) (e : RouteEntry K) : Py (List (EEdge K)) :=
  if e.node.route.type = .circular then do
    let x ← boardingEdge freq e.node
    return [x]
  else
    match (e.node.route.nodesOf e.node.dir).getLast? with
    | none => .error .IndexError
    | some z => if e.node.stop.city.node.id ≠ z then do
        let x ← boardingEdge freq e.node
        return [x]
      else .ok []

/-- extended_graph.py:410-444 `build_boarding_edges` -/
def boardingEdges (nodes : ENodes K) (freq : Dict Str K) : Py (List (EEdge K)) := do
  let l ← (entriesOf nodes).mapM (boardingStep freq)
  return l.flatten

/-- extended_graph.py:469-471 and 475-477 -/
def alightingEdge (spt : K) (e : RouteNode K) : EEdge K := ⟨.route e, .stop e.stop, spt, none, .alighting⟩

/-- extended_graph.py:459-478: one pass of the loop over the route nodes -/
def alightingStep (spt : K) (e : RouteEntry K) : Py (List (EEdge K)) :=
  if e.node.route.type = .circular then .ok [alightingEdge spt e.node]
  else
    match (e.node.route.nodesOf e.node.dir).head? with
    | none => .error .IndexError
    | some z => if e.node.stop.city.node.id ≠ z then .ok [alightingEdge spt e.node] else .ok []

/-- extended_graph.py:446-480 `build_alighting_edges` -/
def alightingEdges (nodes : ENodes K) (sPTP : K) : Py (List (EEdge K)) := do
  let l ← (entriesOf nodes).mapM (alightingStep (sPTP / 60))
  return l.flatten

variable [PyMath K]

/-- `((x1 - x2) ** 2 + (y1 - y2) ** 2) ** 0.5` -/
def segment (p q : K × K) : K := PyMath.sqrt ((p.1 - q.1) ^ 2 + (p.2 - q.2) ^ 2)

/-- extended_graph.py:526-542: the loop over the node sequence; `a` and `b` are the ids of the previous and of the current
stop (`id_city2` and `id_city1`), `final` the coordinates of the current one -/
def legLoop (nodes : List (Node K)) (a b : Int) (final : K × K) : List Int → Bool → K × K → K → K
  | [], _, _, distance => distance
  | node :: rest, count, prev, distance =>
    if node = a then legLoop nodes a b final rest true prev distance
    else if node = b then distance + segment prev final
    else if count then
      match nodes.find? (fun n => decide (node = n.id)) with
      | some n => legLoop nodes a b final rest count (n.x, n.y) (distance + segment prev (n.x, n.y))
      | none => legLoop nodes a b final rest count prev distance
    else legLoop nodes a b final rest count prev distance

/-- extended_graph.py:502-542: the distance between a route node and its previous one -/
def legDistance (nodes : List (Node K)) (p e : RouteNode K) : K :=
  legLoop nodes p.stop.city.node.id e.stop.city.node.id (e.stop.city.node.x, e.stop.city.node.y)
    (e.route.nodesOf e.dir) false (p.stop.city.node.x, p.stop.city.node.y) 0

/-- extended_graph.py:494-550: one pass of the loop over the route nodes -/
def routeStep (nodes : List (Node K)) (e : RouteEntry K) : Py (List (EEdge K)) :=
  match e.prev with
  | none => .ok []
  | some p => do
    let t ← pyDiv (legDistance nodes p e.node) e.node.stop.mode.v
    return [⟨.route p, .route e.node, t, none, .route⟩]

/-- extended_graph.py:481-552 `build_route_edges` -/
def routeEdges (nodes : ENodes K) : Py (List (EEdge K)) := do
  let l ← (entriesOf nodes).mapM (routeStep (nodes.map fun p => p.1.node))
  return l.flatten

/-! ### the extended graph -/

/-- the attributes of an `ExtendedGraph` -/
structure ExtGraph (K : Type) where
  nodes : ENodes K
  edges : List (EEdge K)
  deriving DecidableEq, Repr

/-- extended_graph.py:130-134: the default frequencies -/
def defaultFrequencies (routes : List (Route K)) : Dict Str K :=
  routes.foldl (fun d r => d.set r.id r.mode.fini) []

/-- extended_graph.py:136-168: the construction with given frequencies.  `freq` is the `defaultdict(float)` of the
documentation, a missing key reads as 0. -/
def buildExtGraphWith (g : Graph K) (routes : List (Route K)) (sPTP : K) (freq : Dict Str K) : Py (ExtGraph K) := do
  let tree := buildTreeGraph routes (buildCityNodes g)
  let stops := buildStopNodes tree
  let entries ← buildRouteNodes routes stops
  let nodes := buildExtendedNodes entries
  let boarding ← boardingEdges nodes freq
  let alighting ← alightingEdges nodes sPTP
  let route ← routeEdges nodes
  return ⟨nodes, accessEdges nodes ++ boarding ++ alighting ++ route⟩

/-- extended_graph.py:116-168 `ExtendedGraph.__init__` -/
def buildExtGraph (g : Graph K) (routes : List (Route K)) (sPTP : K) (freq : Option (Dict Str K)) : Py (ExtGraph K) :=
  buildExtGraphWith g routes sPTP (match freq with
    | none => defaultFrequencies routes
    | some f => f)

end Edges

end Sidermit
