import Verif.Model.Report

/-!
Model of `ExtendedGraph.__str__` of `sidermit/optimization/preoptimization/extended_graph.py`.
-/

namespace Sidermit

variable {K : Type} [Field K] [LinearOrder K] [FloorRing K] [NumText K]

/-- the edges found by a loop `for edge in edges: if edge.nodei == a and edge.nodej == b` -/
def edgesBetween (edges : List (EEdge K)) (a b : ENode K) : List (EEdge K) :=
  edges.filter fun e => decide (e.i = a ∧ e.j = b)

/-- a direction is the string "I" or "R" -/
def dirText : Dir → Str
  | .I => ['I']
  | .R => ['R']

/-- extended_graph.py:180-182 -/
def accessText (e : EEdge K) : Str := "\tAccess edge\n\t-Access time: ".toList ++ fixed 2 e.t ++ " [min]\n".toList

/-- extended_graph.py:188-190 -/
def boardingText (e : EEdge K) : Str :=
  "\t\t\tBoarding edge\n\t\t\t-Frequency: ".toList ++ fixedTop 2 e.f ++ " [veh/h]\n".toList

/-- extended_graph.py:193-195 -/
def alightingText (e : EEdge K) : Str :=
  "\t\t\tAlighting edge\n\t\t\t-Penalty transfer: ".toList ++ fixed 2 (e.t * 60) ++ " [min]\n".toList

/-- extended_graph.py:199-201 and 208-212: the block of a route node -/
def routeNodeText (n : RouteNode K) (prev time : Str) : Str :=
  "\t\t\t\tRoute node\n\t\t\t\t-Route_id: ".toList ++ n.route.id ++ "\n\t\t\t\t-Direction: ".toList ++ dirText n.dir ++
    "\n\t\t\t\t-Previous stop: ".toList ++ prev ++ "\n\t\t\t\t-Time to previous stop: ".toList ++ time ++ " [hrs]\n".toList

/-- extended_graph.py:203-207: the time of the first edge found.  Without an edge the integer 0 is printed. -/
def previousTime (edges : List (EEdge K)) (p n : RouteNode K) : Str :=
  match edges.find? fun e => decide (e.i = .route p ∧ e.j = .route n) with
  | some e => NumText.fmt e.t
  | none => showInt 0

/-- extended_graph.py:186-212: one pass of the loop over the route nodes of a stop -/
def entryText (edges : List (EEdge K)) (s : StopNode K) (e : RouteEntry K) : Str :=
  (edgesBetween edges (.stop s) (.route e.node)).flatMap boardingText ++
    ((edgesBetween edges (.route e.node) (.stop s)).flatMap alightingText ++
      match e.prev with
      | none => routeNodeText e.node "no data".toList (fixed 2 (0 : K))
      | some p => routeNodeText e.node p.stop.city.node.name (previousTime edges p e.node))

/-- extended_graph.py:178-212: one pass of the loop over the stop nodes of a city node -/
def stopText (edges : List (EEdge K)) (c : CityNode K) (q : StopNode K × List (RouteEntry K)) : Str :=
  (edgesBetween edges (.city c) (.stop q.1)).flatMap accessText ++
    ("\t\tStop node\n\t\t-Mode name: ".toList ++ q.1.mode.name ++ "\n".toList ++ q.2.flatMap (entryText edges q.1))

/-- extended_graph.py:176-212: one pass of the loop over the city nodes -/
def cityText (edges : List (EEdge K)) (p : CityNode K × Dict (StopNode K) (List (RouteEntry K))) : Str :=
  "City node\n-Graph node name: ".toList ++ p.1.node.name ++ "\n".toList ++ p.2.flatMap (stopText edges p.1)

/-- extended_graph.py:170-213 `__str__` -/
def ExtGraph.text (x : ExtGraph K) : Str := x.nodes.flatMap (cityText x.edges)

end Sidermit
