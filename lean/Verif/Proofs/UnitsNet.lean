import Verif.Spec.Units
import Verif.Proofs.Sim
import Verif.Proofs.ExtEdges

/-!
The extended graph in the second description (Spec/Units).
-/

set_option linter.unusedSectionVars false

namespace Sidermit

variable {K : Type}

namespace Terms

/-- a city node -/
def city (u : Terms K) (c : CityNode K) : CityNode K := ⟨c.idx, u.node c.node⟩

/-- a stop -/
def stop (u : Terms K) (s : StopNode K) : StopNode K := ⟨u.mode s.mode, u.city s.city⟩

/-- a route node -/
def onLine (u : Terms K) (n : RouteNode K) : RouteNode K := ⟨n.ridx, u.route n.route, n.dir, n.pos, u.stop n.stop⟩

/-- a route node and the one before -/
def entry (u : Terms K) (e : RouteEntry K) : RouteEntry K := ⟨u.onLine e.node, e.prev.map u.onLine⟩

/-- a node -/
def enode (u : Terms K) : ENode K → ENode K
  | .city c => .city (u.city c)
  | .stop s => .stop (u.stop s)
  | .route n => .route (u.onLine n)

/-- an edge: the same time and frequency -/
def edge (u : Terms K) (e : EEdge K) : EEdge K := ⟨u.enode e.i, u.enode e.j, e.t, e.f, e.type⟩

/-- the nodes -/
def enodes (u : Terms K) (x : ENodes K) : ENodes K := Dict.via u.city (Dict.via u.stop (List.map u.entry)) x

/-- the extended graph -/
def ext (u : Terms K) (x : ExtGraph K) : ExtGraph K := ⟨u.enodes x.nodes, x.edges.map u.edge⟩

end Terms

variable [Field K] [LinearOrder K] [PyMath K] {u : Terms K}

/-! ### different things have different descriptions -/

namespace Terms.Shape

theorem city_inj (h : u.Shape) : Function.Injective u.city := by
  rintro ⟨i, n⟩ ⟨j, m⟩ e
  simp only [Terms.city, CityNode.mk.injEq] at e
  rw [e.1, h.nodes e.2]

theorem stop_inj (h : u.Shape) : Function.Injective u.stop := by
  rintro ⟨m, c⟩ ⟨m', c'⟩ e
  simp only [Terms.stop, StopNode.mk.injEq] at e
  rw [h.modes e.1, h.city_inj e.2]

theorem route_inj (h : u.Shape) : Function.Injective u.route := by
  rintro ⟨a, m, n1, n2, s1, s2, t⟩ ⟨a', m', n1', n2', s1', s2', t'⟩ e
  simp only [Terms.route, Route.mk.injEq] at e
  have hl := List.map_injective_iff.2 h.nodeIds
  obtain ⟨e1, e2, e3, e4, e5, e6, e7⟩ := e
  rw [h.lineIds e1, h.modes e2, hl e3, hl e4, hl e5, hl e6, e7]

theorem onLine_inj (h : u.Shape) : Function.Injective u.onLine := by
  rintro ⟨a, r, d, p, s⟩ ⟨a', r', d', p', s'⟩ e
  simp only [Terms.onLine, RouteNode.mk.injEq] at e
  obtain ⟨e1, e2, e3, e4, e5⟩ := e
  rw [e1, h.route_inj e2, e3, e4, h.stop_inj e5]

theorem enode_inj (h : u.Shape) : Function.Injective u.enode := by
  intro x y e
  cases x <;> cases y <;> simp only [Terms.enode, ENode.city.injEq, ENode.stop.injEq, ENode.route.injEq, reduceCtorEq] at e
  · rw [h.city_inj e]
  · rw [h.stop_inj e]
  · rw [h.onLine_inj e]

theorem edge_inj (h : u.Shape) : Function.Injective u.edge := by
  rintro ⟨i, j, t, f, y⟩ ⟨i', j', t', f', y'⟩ e
  simp only [Terms.edge, EEdge.mk.injEq] at e
  obtain ⟨e1, e2, e3, e4, e5⟩ := e
  rw [h.enode_inj e1, h.enode_inj e2, e3, e4, e5]

theorem len_ne (h : u.Shape) : u.len ≠ 0 := h.len.ne'

theorem div_len (h : u.Shape) (a b : K) : pyDiv (u.len * a) (u.len * b) = pyDiv a b := by
  unfold pyDiv
  by_cases hb : b = 0
  · rw [if_pos hb, if_pos (by rw [hb, mul_zero])]
  · rw [if_neg hb, if_neg (mul_ne_zero h.len_ne hb), mul_div_mul_left _ _ h.len_ne]

end Terms.Shape

/-! ### the tree -/

/-- the tree of the second description -/
def Terms.tree (u : Terms K) (t : TreeGraph K) : TreeGraph K :=
  Dict.via u.city (Dict.via u.mode (List.map (Prod.map u.route id))) t

theorem Terms.stopsOf (u : Terms K) (r : Route K) (d : Dir) : (u.route r).stopsOf d = (r.stopsOf d).map u.nodeId := by
  cases d <;> rfl

theorem Terms.nodesOf (u : Terms K) (r : Route K) (d : Dir) : (u.route r).nodesOf d = (r.nodesOf d).map u.nodeId := by
  cases d <;> rfl

theorem treeAdd_terms (h : u.Shape) (c : CityNode K) (r : Route K) (d : Dir) (t : TreeGraph K) :
    treeAdd (u.city c) (u.route r) d (u.tree t) = u.tree (treeAdd c r d t) := by
  have hcell : ((u.tree t).getD (u.city c) []).getD (u.route r).mode [] =
      ((t.getD c []).getD r.mode []).map (Prod.map u.route id) := by
    have h1 := Dict.getD_via (ψ := Dict.via u.mode (List.map (Prod.map u.route (id : Dir → Dir)))) h.city_inj t c []
    have h2 := Dict.getD_via (ψ := List.map (Prod.map u.route (id : Dir → Dir))) h.modes (t.getD c []) r.mode []
    exact (congrArg (fun x => Dict.getD x (u.mode r.mode) []) h1).trans h2
  have hmem : ((u.route r, d) ∈ ((t.getD c []).getD r.mode []).map (Prod.map u.route id)) ↔
      (r, d) ∈ (t.getD c []).getD r.mode [] := by
    have hi : Function.Injective (Prod.map u.route (id : Dir → Dir)) := h.route_inj.prodMap Function.injective_id
    exact List.mem_map_of_injective hi (a := (r, d))
  unfold treeAdd
  rw [hcell]
  have hc : (((u.route r).type = .predefined ∨ (u.route r).type = .circular) ∧
      (u.route r, d) ∈ ((t.getD c []).getD r.mode []).map (Prod.map u.route id)) ↔
      ((r.type = .predefined ∨ r.type = .circular) ∧ (r, d) ∈ (t.getD c []).getD r.mode []) :=
    and_congr Iff.rfl hmem
  by_cases hr : (r.type = .predefined ∨ r.type = .circular) ∧ (r, d) ∈ (t.getD c []).getD r.mode []
  · rw [if_pos hr, if_pos (hc.2 hr)]
  · rw [if_neg hr, if_neg (fun h' => hr (hc.1 h'))]
    unfold setCell
    have h1 : (u.tree t).getD (u.city c) [] = Dict.via u.mode (List.map (Prod.map u.route id)) (t.getD c []) :=
      Dict.getD_via (ψ := Dict.via u.mode (List.map (Prod.map u.route (id : Dir → Dir)))) h.city_inj t c []
    rw [h1]
    have h2 := Dict.set_via (ψ := List.map (Prod.map u.route (id : Dir → Dir))) h.modes (t.getD c []) r.mode
      ((t.getD c []).getD r.mode [] ++ [(r, d)])
    rw [List.map_append] at h2
    have h3 := Dict.set_via (ψ := Dict.via u.mode (List.map (Prod.map u.route (id : Dir → Dir)))) h.city_inj t c
      ((t.getD c []).set r.mode ((t.getD c []).getD r.mode [] ++ [(r, d)]))
    rw [← h2] at h3
    exact h3

theorem treeStops_terms (h : u.Shape) (c : CityNode K) (r : Route K) (d : Dir) (t : TreeGraph K) :
    treeStops (u.city c) (u.route r) d (u.tree t) = u.tree (treeStops c r d t) := by
  unfold treeStops
  rw [u.stopsOf]
  refine foldl_image (φ := u.tree) ?_ _ _
  intro t s
  have hi : (u.city c).node.id = u.nodeId s ↔ c.node.id = s := by
    show (u.node c.node).id = _ ↔ _
    rw [h.id]
    exact h.nodeIds.eq_iff
  by_cases hs : c.node.id = s
  · rw [if_pos hs, if_pos (hi.2 hs), treeAdd_terms h]
  · rw [if_neg hs, if_neg (fun h' => hs (hi.1 h'))]

theorem buildTreeGraph_terms (h : u.Shape) (routes : List (Route K)) (cities : List (CityNode K)) :
    buildTreeGraph (routes.map u.route) (cities.map u.city) = u.tree (buildTreeGraph routes cities) := by
  unfold buildTreeGraph
  refine foldl_image (φ := u.tree) (s := []) ?_ _
  intro t c
  refine foldl_image (φ := u.tree) ?_ _ _
  intro t r
  unfold treeRoute
  rw [treeStops_terms h, treeStops_terms h]

theorem buildStopNodes_terms (h : u.Shape) (t : TreeGraph K) :
    buildStopNodes (u.tree t) = (buildStopNodes t).map u.stop := by
  unfold buildStopNodes
  refine foldl_image (φ := List.map u.stop) (s := []) ?_ _
  intro s p
  show (Dict.keys (Dict.via u.mode _ p.2)).foldl (addStop (u.city p.1)) (s.map u.stop) = _
  rw [Dict.keys_via]
  refine foldl_image (φ := List.map u.stop) ?_ _ _
  intro s m
  unfold addStop
  have hm : (⟨u.mode m, u.city p.1⟩ : StopNode K) ∈ s.map u.stop ↔ (⟨m, p.1⟩ : StopNode K) ∈ s :=
    List.mem_map_of_injective h.stop_inj (a := ⟨m, p.1⟩)
  by_cases hs : (⟨m, p.1⟩ : StopNode K) ∈ s
  · rw [if_pos hs, if_pos (hm.2 hs)]
  · rw [if_neg hs, if_neg (fun h' => hs (hm.1 h')), List.map_append]; rfl

theorem buildCityNodes_terms (g : Graph K) : buildCityNodes (u.graph g) = (buildCityNodes g).map u.city := by
  unfold buildCityNodes Terms.graph
  simp only [List.zipIdx_map, List.map_map]
  rfl

/-! ### route nodes -/

theorem stopFor_terms (h : u.Shape) (stops : List (StopNode K)) (m : Mode K) (id : Int) :
    stopFor (stops.map u.stop) (u.mode m) (u.nodeId id) = (stopFor stops m id).map u.stop := by
  unfold stopFor
  refine find?_image ?_ stops
  intro s
  refine decide_eq_decide.2 (and_congr h.modes.eq_iff ?_)
  show (u.node s.city.node).id = _ ↔ _
  rw [h.id]
  exact h.nodeIds.eq_iff

theorem mkRouteNode_terms (h : u.Shape) (stops : List (StopNode K)) (i : Nat) (r : Route K) (d : Dir) (p : Int × Nat) :
    PyRel (fun a b => b = u.onLine a) (mkRouteNode stops i r d p)
      (mkRouteNode (stops.map u.stop) i (u.route r) d (u.nodeId p.1, p.2)) := by
  unfold mkRouteNode
  have hf : stopFor (stops.map u.stop) (u.route r).mode (u.nodeId p.1, p.2).1 = (stopFor stops r.mode p.1).map u.stop :=
    stopFor_terms h stops r.mode p.1
  rw [hf]
  cases stopFor stops r.mode p.1 with
  | none => exact .error _
  | some s => exact .ok rfl

theorem keptStops_terms (r : Route K) (d : Dir) :
    keptStops (u.route r) d = (keptStops r d).map fun p => (u.nodeId p.1, p.2) := by
  unfold keptStops
  rw [u.stopsOf, List.zipIdx_map]
  show (if r.type = .circular then _ else _) = _
  split
  · rw [List.map_drop]; rfl
  · rfl

theorem directionNodes_terms (h : u.Shape) (stops : List (StopNode K)) (i : Nat) (r : Route K) (d : Dir) :
    PyRel (fun a b => b = a.map u.entry) (directionNodes stops i r d) (directionNodes (stops.map u.stop) i (u.route r) d) := by
  unfold directionNodes
  rw [keptStops_terms]
  refine (PyRel.mapM (Q := fun p q => q = (u.nodeId p.1, p.2)) (S := fun a b => b = u.onLine a) ?_ (forall₂_image _ _)).bind ?_
  · rintro p _ rfl
    exact mkRouteNode_terms h stops i r d p
  · intro l l' hl
    rw [eq_of_forall₂_image hl]
    refine .ok ?_
    show List.zipWith RouteEntry.mk (l.map u.onLine) ((if r.type = .circular then (l.map u.onLine).getLast? else none) ::
      (l.map u.onLine).map some) = (List.zipWith RouteEntry.mk l ((if r.type = .circular then l.getLast? else none) :: l.map some)).map u.entry
    have h1 : (if r.type = .circular then (l.map u.onLine).getLast? else none) =
        (if r.type = .circular then l.getLast? else none).map u.onLine := by
      split
      · rw [List.getLast?_map]
      · rfl
    have h2 : ((l.map u.onLine).map some) = (l.map some).map (Option.map u.onLine) := by
      rw [List.map_map, List.map_map]; rfl
    rw [h1, h2, ← List.map_cons, List.zipWith_map, List.map_zipWith]
    rfl

theorem buildRouteNodes_terms (h : u.Shape) (routes : List (Route K)) (stops : List (StopNode K)) :
    PyRel (fun a b => b = a.map u.entry) (buildRouteNodes routes stops) (buildRouteNodes (routes.map u.route) (stops.map u.stop)) := by
  unfold buildRouteNodes
  rw [List.zipIdx_map]
  refine (PyRel.mapM (Q := fun p q => q = Prod.map u.route id p) (S := fun a b => b = List.map u.entry a) ?_ (forall₂_image _ _)).bind ?_
  · rintro p _ rfl
    unfold routeNodesOf
    refine (directionNodes_terms h stops p.2 p.1 .I).bind ?_
    rintro a _ rfl
    refine (directionNodes_terms h stops p.2 p.1 .R).bind ?_
    rintro b _ rfl
    exact .ok (List.map_append ..).symm
  · intro l l' hl
    rw [eq_of_forall₂_image hl]
    exact .ok (List.map_flatten ..).symm

theorem addRouteNode_terms (h : u.Shape) (x : ENodes K) (e : RouteEntry K) :
    addRouteNode (u.enodes x) (u.entry e) = u.enodes (addRouteNode x e) := by
  unfold addRouteNode setCell
  have h1 : (u.enodes x).getD (u.city e.node.stop.city) [] = Dict.via u.stop (List.map u.entry) (x.getD e.node.stop.city []) :=
    Dict.getD_via (ψ := Dict.via u.stop (List.map u.entry)) h.city_inj x _ []
  have h2 : (Dict.via u.stop (List.map u.entry) (x.getD e.node.stop.city [])).getD (u.stop e.node.stop) [] =
      ((x.getD e.node.stop.city []).getD e.node.stop []).map u.entry :=
    Dict.getD_via (ψ := List.map u.entry) h.stop_inj _ _ []
  have h3 := Dict.set_via (ψ := List.map u.entry) h.stop_inj (x.getD e.node.stop.city []) e.node.stop
    ((x.getD e.node.stop.city []).getD e.node.stop [] ++ [e])
  have h4 := Dict.set_via (ψ := Dict.via u.stop (List.map u.entry)) h.city_inj x e.node.stop.city
    ((x.getD e.node.stop.city []).set e.node.stop ((x.getD e.node.stop.city []).getD e.node.stop [] ++ [e]))
  rw [List.map_append] at h3
  rw [← h3] at h4
  show Dict.set (u.enodes x) (u.city e.node.stop.city) (Dict.set ((u.enodes x).getD (u.city e.node.stop.city) []) (u.stop e.node.stop)
    (((u.enodes x).getD (u.city e.node.stop.city) []).getD (u.stop e.node.stop) [] ++ [u.entry e])) = _
  rw [h1, h2]
  exact h4

theorem buildExtendedNodes_terms (h : u.Shape) (l : List (RouteEntry K)) :
    buildExtendedNodes (l.map u.entry) = u.enodes (buildExtendedNodes l) :=
  foldl_image (φ := u.enodes) (fun s a => addRouteNode_terms h s a) l []

/-! ### edges -/

theorem stopsOf_terms (x : ENodes K) : stopsOf (u.enodes x) = (stopsOf x).map u.stop := by
  unfold stopsOf Terms.enodes Dict.via
  rw [List.flatMap_map, List.map_flatMap]
  congr 1
  funext p
  exact Dict.keys_via p.2

theorem entriesOf_terms (x : ENodes K) : entriesOf (u.enodes x) = (entriesOf x).map u.entry := by
  unfold entriesOf Terms.enodes Dict.via
  rw [List.flatMap_map, List.map_flatMap]
  congr 1
  funext p
  simp only [List.flatMap_map, List.map_flatMap]

theorem accessEdges_terms (h : u.Shape) (x : ENodes K) : accessEdges (u.enodes x) = (accessEdges x).map u.edge := by
  unfold accessEdges
  have : ∀ p : CityNode K × Dict (StopNode K) (List (RouteEntry K)), (Dict.keys (Dict.via u.stop (List.map u.entry) p.2)).flatMap
      (accessPair (u.city p.1)) = ((Dict.keys p.2).flatMap (accessPair p.1)).map u.edge := by
    intro p
    rw [Dict.keys_via, List.flatMap_map, List.map_flatMap]
    congr 1
    funext s
    unfold accessPair
    show [(⟨_, _, (u.mode s.mode).tat / 60, _, _⟩ : EEdge K), ⟨_, _, (u.mode s.mode).tat / 60, _, _⟩] = _
    rw [h.tat]
    rfl
  unfold Terms.enodes
  conv_lhs => unfold Dict.via
  rw [List.flatMap_map, List.map_flatMap]
  congr 1
  funext p
  exact this p

/-- a frequency in the second description -/
theorem frequency_terms (h : u.Shape) (f : Dict Str K) (line : Str) : (u.frequencies f).getD (u.lineId line) 0 = f.getD line 0 :=
  Dict.getD_via (ψ := (id : K → K)) h.lineIds f line 0

theorem boardingEdge_terms (h : u.Shape) (f : Dict Str K) (n : RouteNode K) :
    PyRel (fun a b => b = u.edge a) (boardingEdge f n) (boardingEdge (u.frequencies f) (u.onLine n)) := by
  unfold boardingEdge
  show PyRel _ _ (pyDiv ((u.frequencies f).getD (u.lineId n.route.id) 0) (((u.mode n.route.mode).d : Int) : K) >>= _)
  rw [frequency_terms h, h.d]
  refine (PyRel.refl _).bind ?_
  rintro q _ rfl
  exact .ok rfl

theorem boardingStep_terms (h : u.Shape) (f : Dict Str K) (e : RouteEntry K) :
    PyRel (fun a b => b = List.map u.edge a) (boardingStep f e) (boardingStep (u.frequencies f) (u.entry e)) := by
  have hb : PyRel (fun a b => b = List.map u.edge a) (do let x ← boardingEdge f e.node; return [x])
      (do let x ← boardingEdge (u.frequencies f) (u.onLine e.node); return [x]) := by
    refine (boardingEdge_terms h f e.node).bind ?_
    rintro a _ rfl
    exact .ok rfl
  unfold boardingStep
  show PyRel _ _ (if e.node.route.type = .circular then (do let x ← boardingEdge (u.frequencies f) (u.onLine e.node); return [x]) else
    match ((u.route e.node.route).nodesOf e.node.dir).getLast? with
    | none => .error .IndexError
    | some z => if (u.node e.node.stop.city.node).id ≠ z then (do let x ← boardingEdge (u.frequencies f) (u.onLine e.node); return [x])
      else .ok [])
  split
  · exact hb
  · rw [u.nodesOf, List.getLast?_map, h.id]
    cases (e.node.route.nodesOf e.node.dir).getLast? with
    | none => exact .error _
    | some z =>
      simp only [Option.map_some, ne_eq, h.nodeIds.eq_iff]
      split
      · exact hb
      · exact .ok rfl

theorem boardingEdges_terms (h : u.Shape) (f : Dict Str K) (x : ENodes K) :
    PyRel (fun a b => b = a.map u.edge) (boardingEdges x f) (boardingEdges (u.enodes x) (u.frequencies f)) := by
  unfold boardingEdges
  rw [entriesOf_terms]
  refine (PyRel.mapM (S := fun a b => b = List.map u.edge a) ?_ (forall₂_image _ _)).bind ?_
  · rintro p _ rfl
    exact boardingStep_terms h f p
  · intro l l' hl
    rw [eq_of_forall₂_image hl]
    exact .ok (List.map_flatten ..).symm

theorem alightingStep_terms (h : u.Shape) (s : K) (e : RouteEntry K) :
    PyRel (fun a b => b = List.map u.edge a) (alightingStep s e) (alightingStep s (u.entry e)) := by
  unfold alightingStep
  show PyRel _ _ (if e.node.route.type = .circular then .ok [alightingEdge s (u.onLine e.node)] else
    match ((u.route e.node.route).nodesOf e.node.dir).head? with
    | none => .error .IndexError
    | some z => if (u.node e.node.stop.city.node).id ≠ z then .ok [alightingEdge s (u.onLine e.node)] else .ok [])
  split
  · exact .ok rfl
  · rw [u.nodesOf, List.head?_map, h.id]
    cases (e.node.route.nodesOf e.node.dir).head? with
    | none => exact .error _
    | some z =>
      simp only [Option.map_some, ne_eq, h.nodeIds.eq_iff]
      split
      · exact .ok rfl
      · exact .ok rfl

theorem alightingEdges_terms (h : u.Shape) (s : K) (x : ENodes K) :
    PyRel (fun a b => b = a.map u.edge) (alightingEdges x s) (alightingEdges (u.enodes x) s) := by
  unfold alightingEdges
  rw [entriesOf_terms]
  refine (PyRel.mapM (S := fun a b => b = List.map u.edge a) ?_ (forall₂_image _ _)).bind ?_
  · rintro p _ rfl
    exact alightingStep_terms h _ p
  · intro l l' hl
    rw [eq_of_forall₂_image hl]
    exact .ok (List.map_flatten ..).symm

theorem legLoop_terms (h : u.Shape) (nodes : List (Node K)) (a b : Int) (n : Node K) :
    ∀ (l : List Int) (c : Bool) (m : Node K) (d : K),
      legLoop (nodes.map u.node) (u.nodeId a) (u.nodeId b) ((u.node n).x, (u.node n).y) (l.map u.nodeId) c
        ((u.node m).x, (u.node m).y) (u.len * d) = u.len * legLoop nodes a b (n.x, n.y) l c (m.x, m.y) d := by
  intro l
  induction l with
  | nil => intro c m d; rfl
  | cons i t ih =>
    intro c m d
    rw [List.map_cons]
    unfold legLoop
    simp only [h.nodeIds.eq_iff]
    split
    · exact ih true m d
    · split
      · have := h.apart m n
        show u.len * d + nodeDistance (u.node m) (u.node n) = u.len * (d + nodeDistance m n)
        rw [this, mul_add]
      · split
        · have hf := find?_image (ψ := u.node) (p := fun k : Node K => decide (i = k.id))
            (p' := fun k : Node K => decide (u.nodeId i = k.id)) (by
              intro k
              refine decide_eq_decide.2 ?_
              rw [h.id]
              exact h.nodeIds.eq_iff) nodes
          rw [hf]
          cases nodes.find? (fun k : Node K => decide (i = k.id)) with
          | none => exact ih c m d
          | some k =>
            simp only [Option.map_some]
            have hs : u.len * d + segment ((u.node m).x, (u.node m).y) ((u.node k).x, (u.node k).y) =
                u.len * (d + segment (m.x, m.y) (k.x, k.y)) := by
              have := h.apart m k
              show u.len * d + nodeDistance (u.node m) (u.node k) = u.len * (d + nodeDistance m k)
              rw [this, mul_add]
            rw [hs]
            exact ih c k _
        · exact ih c m d

theorem routeStep_terms (h : u.Shape) (nodes : List (Node K)) (e : RouteEntry K) :
    PyRel (fun a b => b = List.map u.edge a) (routeStep nodes e) (routeStep (nodes.map u.node) (u.entry e)) := by
  unfold routeStep
  obtain ⟨n, p⟩ := e
  cases p with
  | none => exact .ok rfl
  | some p =>
    have hd : legDistance (nodes.map u.node) (u.onLine p) (u.onLine n) = u.len * legDistance nodes p n := by
      unfold legDistance
      have := legLoop_terms h nodes p.stop.city.node.id n.stop.city.node.id n.stop.city.node (n.route.nodesOf n.dir) false
        p.stop.city.node 0
      rw [mul_zero, ← h.id, ← h.id, ← u.nodesOf] at this
      exact this
    show PyRel _ (pyDiv (legDistance nodes p n) n.stop.mode.v >>= _)
      (pyDiv (legDistance (nodes.map u.node) (u.onLine p) (u.onLine n)) (u.mode n.stop.mode).v >>= _)
    rw [hd, h.v, h.div_len]
    refine (PyRel.refl _).bind ?_
    rintro t _ rfl
    exact .ok rfl

theorem routeEdges_terms (h : u.Shape) (x : ENodes K) :
    PyRel (fun a b => b = a.map u.edge) (routeEdges x) (routeEdges (u.enodes x)) := by
  unfold routeEdges
  rw [entriesOf_terms]
  have hn : ((u.enodes x).map fun p => p.1.node) = (x.map fun p => p.1.node).map u.node := by
    unfold Terms.enodes Dict.via
    rw [List.map_map, List.map_map]
    rfl
  rw [hn]
  refine (PyRel.mapM (S := fun a b => b = List.map u.edge a) ?_ (forall₂_image _ _)).bind ?_
  · rintro p _ rfl
    exact routeStep_terms h _ p
  · intro l l' hl
    rw [eq_of_forall₂_image hl]
    exact .ok (List.map_flatten ..).symm

/-! ### the extended graph -/

theorem buildExtGraphWith_terms (h : u.Shape) (g : Graph K) (routes : List (Route K)) (s : K) (f : Dict Str K) :
    PyRel (fun a b => b = u.ext a) (buildExtGraphWith g routes s f)
      (buildExtGraphWith (u.graph g) (routes.map u.route) s (u.frequencies f)) := by
  unfold buildExtGraphWith
  simp only [buildCityNodes_terms, buildTreeGraph_terms h, buildStopNodes_terms h]
  refine (buildRouteNodes_terms h routes _).bind ?_
  rintro l _ rfl
  rw [buildExtendedNodes_terms h]
  refine (boardingEdges_terms h f _).bind ?_
  rintro b _ rfl
  refine (alightingEdges_terms h s _).bind ?_
  rintro a _ rfl
  refine (routeEdges_terms h _).bind ?_
  rintro r _ rfl
  refine .ok ?_
  unfold Terms.ext
  rw [accessEdges_terms h]
  simp only [List.map_append]

theorem defaultFrequencies_terms (h : u.Shape) (hf : u.Starts) (routes : List (Route K)) :
    defaultFrequencies (routes.map u.route) = u.frequencies (defaultFrequencies routes) := by
  unfold defaultFrequencies
  refine foldl_image (φ := u.frequencies) (s := []) ?_ _
  intro d r
  show Dict.set _ (u.lineId r.id) (u.mode r.mode).fini = _
  rw [hf]
  exact Dict.set_via (ψ := (id : K → K)) h.lineIds d r.id _

theorem buildExtGraph_terms (h : u.Shape) (hf : u.Starts) (g : Graph K) (routes : List (Route K)) (s : K) (f : Option (Dict Str K)) :
    PyRel (fun a b => b = u.ext a) (buildExtGraph g routes s f)
      (buildExtGraph (u.graph g) (routes.map u.route) s (f.map u.frequencies)) := by
  unfold buildExtGraph
  cases f with
  | none =>
    show PyRel _ _ (buildExtGraphWith _ _ s (defaultFrequencies (routes.map u.route)))
    rw [defaultFrequencies_terms h hf]
    exact buildExtGraphWith_terms h g routes s _
  | some f => exact buildExtGraphWith_terms h g routes s f

end Sidermit
