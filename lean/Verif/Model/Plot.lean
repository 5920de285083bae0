import Verif.Model.Network

/-!
Model of `Graph.plot` and `TransportNetwork.plot`: the positions and the calls of the drawing functions of NetworkX, in order.  What is
painted for a call (sizes, maps of colours, arrows), the title, the axes and the file are not modelled.
-/

namespace Sidermit

variable {K : Type}

/-- a call of `nx.draw_networkx_nodes`, `nx.draw_networkx_labels` or `nx.draw_networkx_edges`; `labels` carries the nodes of the
graph `G`, which are the ones that get a label -/
inductive DrawCall
  | nodes (ids : List Int) (colour : Str)
  | labels (ids : List Int)
  | edges (ids : List (Int × Int)) (colour : Str)
  deriving DecidableEq, Repr

/-- what is handed to NetworkX: the dictionary of positions and the calls -/
structure Drawing (K : Type) where
  position : Dict Int (K × K)
  calls : List DrawCall
  deriving DecidableEq, Repr

/-- graph.py:990-995 and network.py:708-713: the position of an end of an edge is entered when there is none -/
def addPosition (nodes : List (Node K)) (d : Dict Int (K × K)) (i : Nat) : Dict Int (K × K) :=
  match nodes[i]? with
  | none => d
  | some nd => if (d.get? nd.id).isSome then d else d.set nd.id (nd.x, nd.y)

/-- one pass of the loop over the edges -/
def edgePositions (nodes : List (Node K)) (d : Dict Int (K × K)) (e : Edge) : Dict Int (K × K) :=
  addPosition nodes (addPosition nodes d e.node1) e.node2

/-- graph.py:987-995, network.py:705-713: `position` -/
def plotPositions (g : Graph K) : Dict Int (K × K) := g.edges.foldl (edgePositions g.nodes) []

/-- graph.py:989, network.py:707: the pair of ids of an edge (edges always join nodes of the list) -/
def edgeIds (g : Graph K) (e : Edge) : Int × Int :=
  (((g.nodes[e.node1]?).map Node.id).getD 0, ((g.nodes[e.node2]?).map Node.id).getD 0)

/-- graph.py:1001-1029, network.py:728-748: the ids of the nodes of a class -/
def idsOfKind (g : Graph K) (k : Kind) : List Int := (g.nodes.filter fun nd => nd.kind = k).map Node.id

/-- `list.append` when the element is not there yet -/
def addOnce (l : List Int) (a : Int) : List Int := if a ∈ l then l else l ++ [a]

/-- `G.add_edges_from(edges)`: the nodes of `G`, in the order in which they were added -/
def addEdgeNodes (l : List Int) (p : Int × Int) : List Int := addOnce (addOnce l p.1) p.2

/-- graph.py:978-1048 `Graph.plot` -/
def plotCity (g : Graph K) : Drawing K :=
  let edges := g.edges.map (edgeIds g)
  { position := plotPositions g
    calls := [.nodes (idsOfKind g .periphery) "red".toList, .nodes (idsOfKind g .subcenter) "blue".toList,
      .nodes (idsOfKind g .cbd) "purple".toList, .labels (edges.foldl addEdgeNodes []), .edges edges "orange".toList] }

/-- network.py:751-754: the four lists filled by the loop over the routes to draw -/
structure RouteDrawing where
  edgesI : List (Int × Int)
  edgesR : List (Int × Int)
  stopsI : List Int
  stopsR : List Int
  deriving DecidableEq, Repr

/-- network.py:755-780: one pass of the loop -/
def drawRoute (s : Network K) (acc : RouteDrawing) (id : Str) : Py RouteDrawing := do
  raiseIf (id ∉ s.routeIds) .RouteIdNotFound
  let r ← pyGet s.routes (s.routeIds.idxOf id)
  return { edgesI := acc.edgesI ++ pairs r.nodesI, edgesR := acc.edgesR ++ pairs r.nodesR,
           stopsI := r.stopsI.foldl addOnce acc.stopsI, stopsR := r.stopsR.foldl addOnce acc.stopsR }

/-- `direction is None or direction == d` -/
def drawsDirection (direction : Option Str) (d : Str) : Bool := direction = none ∨ direction = some d

/-- network.py:715-748, 782-815: the calls, from the lists filled by the loop; `G` gets the edges of both directions always -/
def networkDrawing (g : Graph K) (rd : RouteDrawing) (direction : Option Str) : Drawing K where
  position := plotPositions g
  calls := [.nodes (idsOfKind g .periphery) "red".toList, .nodes (idsOfKind g .subcenter) "blue".toList,
      .nodes (idsOfKind g .cbd) "purple".toList] ++
    (if drawsDirection direction "I".toList then [.nodes rd.stopsI "yellow".toList] else []) ++
    (if drawsDirection direction "R".toList then [.nodes rd.stopsR "yellow".toList] else []) ++
    [.labels ((g.edges.map (edgeIds g) ++ rd.edgesI ++ rd.edgesR).foldl addEdgeNodes []), .edges (g.edges.map (edgeIds g)) "orange".toList] ++
    (if drawsDirection direction "I".toList then [.edges rd.edgesI "lime".toList] else []) ++
    (if drawsDirection direction "R".toList then [.edges rd.edgesR "aqua".toList] else [])

/-- network.py:690-815 `TransportNetwork.plot`; `list` is `list_routes`, `none` is `None` -/
def plotNetwork (s : Network K) (list : Option (List Str)) (direction : Option Str) : Py (Drawing K) := do
  let rd ← (list.getD s.routeIds).foldlM (drawRoute s) ⟨[], [], [], []⟩
  return networkDrawing s.graph rd direction

end Sidermit
