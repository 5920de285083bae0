import Verif.Spec.Plot
import Verif.Props.Network
import Verif.Props.City

/-!
C83: the pictures of the city and of the network.
-/

set_option linter.unusedSectionVars false

namespace Sidermit

variable {K : Type}

theorem mem_addOnce (l : List Int) (a b : Int) : b ∈ addOnce l a ↔ b ∈ l ∨ b = a := by
  unfold addOnce
  split_ifs with h
  · exact ⟨Or.inl, fun e => e.elim id fun e => e ▸ h⟩
  · simp

theorem nodup_addOnce {l : List Int} (h : l.Nodup) (a : Int) : (addOnce l a).Nodup := by
  unfold addOnce
  split_ifs with ha
  · exact h
  · rw [List.nodup_append]
    refine ⟨h, List.nodup_singleton a, fun b hb c hc => ?_⟩
    rw [List.mem_singleton.1 hc]
    exact fun e => ha (e ▸ hb)

theorem foldl_addOnce (t : List Int) : ∀ l : List Int, (∀ b, b ∈ t.foldl addOnce l ↔ b ∈ l ∨ b ∈ t) ∧ (l.Nodup → (t.foldl addOnce l).Nodup) := by
  induction t with
  | nil => exact fun l => ⟨by simp, id⟩
  | cons a t ih =>
    intro l
    rw [List.foldl_cons]
    refine ⟨fun b => ?_, fun h => (ih _).2 (nodup_addOnce h a)⟩
    rw [(ih _).1, mem_addOnce, List.mem_cons, or_assoc]

theorem foldl_addEdgeNodes (t : List (Int × Int)) : ∀ l : List Int,
    (∀ b, b ∈ t.foldl addEdgeNodes l ↔ b ∈ l ∨ ∃ p ∈ t, b = p.1 ∨ b = p.2) ∧ (l.Nodup → (t.foldl addEdgeNodes l).Nodup) := by
  induction t with
  | nil => exact fun l => ⟨by simp, id⟩
  | cons a t ih =>
    intro l
    rw [List.foldl_cons]
    refine ⟨fun b => ?_, fun h => (ih _).2 (nodup_addOnce (nodup_addOnce h _) _)⟩
    rw [(ih _).1, addEdgeNodes, mem_addOnce, mem_addOnce]
    simp only [List.mem_cons, exists_eq_or_imp, or_assoc]

section Position

variable {nodes : List (Node K)}

/-- the positions are those of nodes of the list, and only ever added -/
def PositionsOf (nodes : List (Node K)) (d : Dict Int (K × K)) : Prop :=
  ∀ a p, d.get? a = some p → ∃ nd ∈ nodes, nd.id = a ∧ p = (nd.x, nd.y)

theorem addPosition_facts {d : Dict Int (K × K)} (h : PositionsOf nodes d) (i : Nat) :
    PositionsOf nodes (addPosition nodes d i) ∧ (∀ a, (d.get? a).isSome → ((addPosition nodes d i).get? a).isSome) ∧
    (∀ nd, nodes[i]? = some nd → ((addPosition nodes d i).get? nd.id).isSome) := by
  unfold addPosition
  cases hi : nodes[i]? with
  | none => exact ⟨h, fun a ha => ha, fun nd e => (by cases e)⟩
  | some nd =>
    simp only
    split_ifs with hd
    · exact ⟨h, fun a ha => ha, fun nd' e => by cases e; exact hd⟩
    · refine ⟨fun a p hp => ?_, fun a ha => ?_, fun nd' e => ?_⟩
      · rw [Dict.get?_set] at hp
        split_ifs at hp with e
        · cases hp
          exact ⟨nd, List.mem_of_getElem? hi, e.symm, rfl⟩
        · exact h a p hp
      · rw [Dict.get?_set]
        split_ifs
        · rfl
        · exact ha
      · cases e
        rw [Dict.get?_set_self]
        rfl

theorem edgePositions_facts {d : Dict Int (K × K)} (h : PositionsOf nodes d) (e : Edge) :
    PositionsOf nodes (edgePositions nodes d e) ∧ (∀ a, (d.get? a).isSome → ((edgePositions nodes d e).get? a).isSome) ∧
    (∀ nd, nodes[e.node1]? = some nd ∨ nodes[e.node2]? = some nd → ((edgePositions nodes d e).get? nd.id).isSome) := by
  obtain ⟨h1, h2, h3⟩ := addPosition_facts h e.node1
  obtain ⟨g1, g2, g3⟩ := addPosition_facts h1 e.node2
  exact ⟨g1, fun a ha => g2 a (h2 a ha), fun nd hnd => hnd.elim (fun hnd => g2 _ (h3 nd hnd)) (g3 nd)⟩

theorem foldl_positions (es : List Edge) : ∀ d : Dict Int (K × K), PositionsOf nodes d →
    PositionsOf nodes (es.foldl (edgePositions nodes) d) ∧ (∀ a, (d.get? a).isSome → ((es.foldl (edgePositions nodes) d).get? a).isSome) ∧
    (∀ e ∈ es, ∀ nd, nodes[e.node1]? = some nd ∨ nodes[e.node2]? = some nd → ((es.foldl (edgePositions nodes) d).get? nd.id).isSome) := by
  induction es with
  | nil => exact fun d h => ⟨h, fun _ ha => ha, fun e he => (by cases he)⟩
  | cons e t ih =>
    intro d h
    obtain ⟨h1, h2, h3⟩ := edgePositions_facts h e
    obtain ⟨g1, g2, g3⟩ := ih _ h1
    refine ⟨g1, fun a ha => g2 a (h2 a ha), fun e' he nd hnd => ?_⟩
    rcases List.mem_cons.1 he with rfl | he
    · exact g2 _ (h3 nd hnd)
    · exact g3 e' he nd hnd

end Position

section City

variable {g : Graph K} {n : Nat}

theorem idsOfKind_perm (g : Graph K) : (idsOfKind g .periphery ++ idsOfKind g .subcenter ++ idsOfKind g .cbd).Perm (g.nodes.map Node.id) := by
  unfold idsOfKind
  rw [← List.map_append, ← List.map_append]
  refine List.Perm.map _ ?_
  induction g.nodes with
  | nil => exact .nil
  | cons nd t ih =>
    rcases hk : nd.kind with _ | _ | _ <;> simp only [List.filter_cons, hk, decide_true, if_true, reduceCtorEq, decide_false, Bool.false_eq_true, if_false]
    · exact List.perm_middle.trans (ih.cons nd)
    · exact ih.cons nd
    · rw [List.append_assoc] at ih ⊢
      exact List.perm_middle.trans (.cons nd ih)

/-- an edge of the city and its ends -/
theorem edge_ends (hs : CityShape g n) {e : Edge} (he : e ∈ g.edges) :
    ∃ a b, g.nodes[e.node1]? = some a ∧ g.nodes[e.node2]? = some b ∧ edgeIds g e = (a.id, b.id) := by
  obtain ⟨h1, h2⟩ := (C10_edge_list hs).2.2.2 e he
  refine ⟨g.nodes[e.node1], g.nodes[e.node2], List.getElem?_eq_getElem h1, List.getElem?_eq_getElem h2, ?_⟩
  simp [edgeIds, List.getElem?_eq_getElem h1, List.getElem?_eq_getElem h2]

theorem mem_plotEdges (hs : CityShape g n) (a b : Int) : (a, b) ∈ g.edges.map (edgeIds g) ↔ g.edgeExist a b = true := by
  unfold Graph.edgeExist
  rw [List.any_eq_true, List.mem_map]
  constructor
  · rintro ⟨e, he, h⟩
    obtain ⟨x, y, h1, h2, h3⟩ := edge_ends hs he
    rw [h3] at h
    cases h
    exact ⟨e, he, by simp [h1, h2]⟩
  · rintro ⟨e, he, h⟩
    obtain ⟨x, y, h1, h2, h3⟩ := edge_ends hs he
    rw [decide_eq_true_eq, h1, h2, Option.map_some, Option.map_some, Option.some.injEq, Option.some.injEq] at h
    exact ⟨e, he, by rw [h3, h.1, h.2]⟩

theorem nodup_plotEdges (hs : CityShape g n) (hd : DistinctIds g) : (g.edges.map (edgeIds g)).Nodup := by
  have h := (C10_edge_list hs).1
  have inj : ∀ {i j : Nat} {a b : Node K}, g.nodes[i]? = some a → g.nodes[j]? = some b → a.id = b.id → i = j := by
    intro i j a b hi hj hab
    obtain ⟨l1, e1⟩ := List.getElem?_eq_some_iff.1 hi
    obtain ⟨l2, e2⟩ := List.getElem?_eq_some_iff.1 hj
    refine (List.Nodup.getElem_inj_iff (hi := by rw [List.length_map]; exact l1) (hj := by rw [List.length_map]; exact l2) hd).1 ?_
    rw [List.getElem_map, List.getElem_map, e1, e2, hab]
  refine List.Nodup.map_on ?_ (List.Nodup.of_map _ h)
  intro e he e' he' hee
  obtain ⟨a, b, h1, h2, h3⟩ := edge_ends hs he
  obtain ⟨a', b', h1', h2', h3'⟩ := edge_ends hs he'
  rw [h3, h3', Prod.mk.injEq] at hee
  exact List.inj_on_of_nodup_map h he he' (Prod.ext (inj h1 h1' hee.1) (inj h2 h2' hee.2))

/-- every node of a city with zones is the end of an edge -/
theorem node_has_edge (hs : CityShape g n) (hn : 1 ≤ n) {nd : Node K} (h : nd ∈ g.nodes) :
    ∃ e ∈ g.edges, g.nodes[e.node1]? = some nd := by
  obtain ⟨i, hi⟩ := List.mem_iff_getElem?.1 h
  have hlt : i < 2 * n + 1 := by rw [← hs.len]; exact (List.getElem?_eq_some_iff.1 hi).1
  have : ∃ j, StreetIdx n i j := by
    rcases Nat.eq_zero_or_pos i with rfl | h0
    · exact ⟨2, Or.inl ⟨0, by omega, by omega⟩⟩
    · rcases Nat.even_or_odd' i with ⟨k, rfl | rfl⟩
      · exact ⟨0, Or.inl ⟨k - 1, by omega, by omega⟩⟩
      · exact ⟨2 * k + 2, Or.inl ⟨k, by omega, by omega⟩⟩
  obtain ⟨j, hj⟩ := this
  obtain ⟨e, he, h1, _⟩ := mem_cityEdges_iff.2 hj
  exact ⟨e, hs.edges ▸ he, by rw [h1]; exact hi⟩

theorem plot_positions (hs : CityShape g n) (hd : DistinctIds g) (hn : 1 ≤ n) {nd : Node K} (h : nd ∈ g.nodes) :
    (plotPositions g).get? nd.id = some (nd.x, nd.y) := by
  obtain ⟨h1, _, h3⟩ := foldl_positions (nodes := g.nodes) g.edges [] (fun a p hp => (by simp at hp))
  obtain ⟨e, he, hi⟩ := node_has_edge hs hn h
  obtain ⟨p, hp⟩ := Option.isSome_iff_exists.1 (h3 e he nd (Or.inl hi))
  obtain ⟨nd', hm, hid, rfl⟩ := h1 _ _ hp
  have : nd' = nd := List.inj_on_of_nodup_map hd hm h hid
  rw [this] at hp
  exact hp

theorem plot_no_position (a : Int) (hs : CityShape g 0) : (plotPositions g).get? a = none := by
  unfold plotPositions
  have : g.edges = [] := List.eq_nil_of_length_eq_zero ((C10_edge_list hs).2.2.1)
  rw [this]
  rfl

theorem idsOfKind_spec (hd : DistinctIds g) (k : Kind) :
    (idsOfKind g k).Nodup ∧ ∀ a, a ∈ idsOfKind g k ↔ ∃ nd ∈ g.nodes, nd.id = a ∧ nd.kind = k := by
  unfold idsOfKind
  refine ⟨hd.sublist (List.Sublist.map _ List.filter_sublist), fun a => ?_⟩
  simp only [List.mem_map, List.mem_filter, decide_eq_true_eq]
  exact ⟨fun ⟨nd, h1, h2⟩ => ⟨nd, h1.1, h2, h1.2⟩, fun ⟨nd, h1, h2, h3⟩ => ⟨nd, ⟨h1, h3⟩, h2⟩⟩

theorem city_labels (hs : CityShape g n) (hn : 1 ≤ n) (a : Int) :
    (∃ p ∈ g.edges.map (edgeIds g), a = p.1 ∨ a = p.2) ↔ ∃ nd ∈ g.nodes, nd.id = a := by
  constructor
  · rintro ⟨p, hp, h⟩
    obtain ⟨e, he, rfl⟩ := List.mem_map.1 hp
    obtain ⟨x, y, h1, h2, h3⟩ := edge_ends hs he
    rw [h3] at h
    rcases h with h | h
    · exact ⟨x, List.mem_of_getElem? h1, h.symm⟩
    · exact ⟨y, List.mem_of_getElem? h2, h.symm⟩
  · rintro ⟨nd, h, rfl⟩
    obtain ⟨e, he, hi⟩ := node_has_edge hs hn h
    obtain ⟨x, y, h1, h2, h3⟩ := edge_ends hs he
    rw [hi] at h1
    cases h1
    exact ⟨_, List.mem_map.2 ⟨e, he, rfl⟩, Or.inl (by rw [h3])⟩

/-- the part of a picture that shows the city: every node once, in the colour of its kind, and every street once in each direction -/
structure Drawing.ShowsCity (d : Drawing K) (g : Graph K) : Prop where
  nodes : ∀ k, (d.nodesIn (colourOf k)).Nodup ∧ ∀ a, a ∈ d.nodesIn (colourOf k) ↔ ∃ nd ∈ g.nodes, nd.id = a ∧ nd.kind = k
  streets : (d.edgesIn "orange".toList).Nodup ∧ ∀ a b, (a, b) ∈ d.edgesIn "orange".toList ↔ g.edgeExist a b = true
  labels : d.labelled.Nodup ∧ ∀ nd ∈ g.nodes, nd.id ∈ d.labelled
  places : ∀ nd ∈ g.nodes, d.position.get? nd.id = some (nd.x, nd.y)

/-- C83: the picture of a city with zones shows all its nodes, once and in the colour of their kind, with their labels, at the places
where they are; it shows the streets, once for each direction, and nothing else. -/
theorem C83_city (hs : CityShape g n) (hd : DistinctIds g) (hn : 1 ≤ n) :
    (plotCity g).ShowsCity g ∧ (plotCity g).Complete ∧ (∀ a, a ∈ (plotCity g).labelled ↔ ∃ nd ∈ g.nodes, nd.id = a) := by
  have e1 : ∀ k, (plotCity g).nodesIn (colourOf k) = idsOfKind g k := by
    intro k
    cases k <;> simp [plotCity, Drawing.nodesIn, colourOf]
  have e2 : (plotCity g).edgesIn "orange".toList = g.edges.map (edgeIds g) := by simp [plotCity, Drawing.edgesIn]
  have e3 : (plotCity g).labelled = (g.edges.map (edgeIds g)).foldl addEdgeNodes [] := by simp [plotCity, Drawing.labelled]
  have hl : ∀ a, a ∈ (plotCity g).labelled ↔ ∃ nd ∈ g.nodes, nd.id = a := by
    intro a
    rw [e3, (foldl_addEdgeNodes _ _).1, ← city_labels hs hn a]
    simp
  have hpos : ∀ nd ∈ g.nodes, (plotCity g).position.get? nd.id = some (nd.x, nd.y) := fun nd h => plot_positions hs hd hn h
  refine ⟨⟨fun k => ?_, ?_, ?_, hpos⟩, ?_, hl⟩
  · rw [e1]; exact idsOfKind_spec hd k
  · rw [e2]; exact ⟨nodup_plotEdges hs hd, mem_plotEdges hs⟩
  · exact ⟨by rw [e3]; exact (foldl_addEdgeNodes _ _).2 List.nodup_nil, fun nd h => (hl _).2 ⟨nd, h, rfl⟩⟩
  · have key : ∀ a, (∃ nd ∈ g.nodes, nd.id = a) → ((plotCity g).position.get? a).isSome := by
      rintro a ⟨nd, h, rfl⟩
      rw [hpos nd h]; rfl
    intro c hc a ha
    refine key a ?_
    have hk : ∀ k, a ∈ idsOfKind g k → ∃ nd ∈ g.nodes, nd.id = a := fun k h => by
      obtain ⟨nd, h1, h2, _⟩ := ((idsOfKind_spec hd k).2 a).1 h
      exact ⟨nd, h1, h2⟩
    simp only [plotCity, List.mem_cons, List.not_mem_nil, or_false] at hc
    rcases hc with rfl | rfl | rfl | rfl | rfl
    · exact hk _ ha
    · exact hk _ ha
    · exact hk _ ha
    · rw [DrawCall.needs, ← e3] at ha
      exact (hl a).1 ha
    · simp only [DrawCall.needs, List.mem_flatMap, List.mem_cons, List.not_mem_nil, or_false] at ha
      exact (city_labels hs hn a).1 ha

/-- C83: a city without zones cannot be drawn: its only node has no position. -/
theorem C83_no_zones (hs : CityShape g 0) : ¬ (plotCity g).Complete := by
  intro h
  obtain ⟨nd, hnd⟩ : ∃ nd, g.nodes[0]? = some nd := ⟨g.nodes[0]'(by rw [hs.len]; omega), List.getElem?_eq_getElem _⟩
  have hk := hs.kind 0 nd hnd
  have := h (.nodes (idsOfKind g .cbd) "purple".toList) (by simp [plotCity]) nd.id (by
    simp only [DrawCall.needs, idsOfKind, List.mem_map, List.mem_filter, decide_eq_true_eq]
    exact ⟨nd, ⟨List.mem_of_getElem? hnd, hk⟩, rfl⟩)
  have e : (plotCity g).position.get? nd.id = none := plot_no_position nd.id hs
  rw [e] at this
  cases this

end City

section Network

variable [DecidableEq K] {g : Graph K} {n : Nat} {s : Network K}

/-- the routes with the given ids -/
def Requested (s : Network K) (ids : List Str) (rs : List (Route K)) : Prop := List.Forall₂ (fun id r => r ∈ s.routes ∧ r.id = id) ids rs

theorem drawRoute_ok (hw : s.Wf) {acc : RouteDrawing} {id : Str} {r : Route K} (hr : r ∈ s.routes) (hid : r.id = id) :
    drawRoute s acc id = .ok ⟨acc.edgesI ++ pairs r.nodesI, acc.edgesR ++ pairs r.nodesR, r.stopsI.foldl addOnce acc.stopsI,
      r.stopsR.foldl addOnce acc.stopsR⟩ := by
  have h1 : id ∈ s.routeIds := by rw [hw.ids, ← hid]; exact List.mem_map_of_mem hr
  have h2 : s.getRoute id = .ok r := (getRoute_eq_ok hw id r).2 ⟨hr, hid⟩
  unfold Network.getRoute at h2
  rw [if_pos h1] at h2
  unfold drawRoute raiseIf
  rw [if_neg (not_not.2 h1), h2]
  rfl

theorem drawRoute_unknown {acc : RouteDrawing} {id : Str} (h : id ∉ s.routeIds) : drawRoute s acc id = .error .RouteIdNotFound := by
  unfold drawRoute raiseIf
  rw [if_pos h]
  rfl

theorem drawRoutes_ok (hw : s.Wf) : ∀ (ids : List Str) (rs : List (Route K)) (acc : RouteDrawing), Requested s ids rs →
    ∃ sI sR, ids.foldlM (drawRoute s) acc = .ok ⟨acc.edgesI ++ rs.flatMap fun r => pairs r.nodesI, acc.edgesR ++ rs.flatMap fun r => pairs r.nodesR, sI, sR⟩ ∧
      (acc.stopsI.Nodup → sI.Nodup) ∧ (acc.stopsR.Nodup → sR.Nodup) ∧
      (∀ a, a ∈ sI ↔ a ∈ acc.stopsI ∨ ∃ r ∈ rs, a ∈ r.stopsI) ∧ (∀ a, a ∈ sR ↔ a ∈ acc.stopsR ∨ ∃ r ∈ rs, a ∈ r.stopsR)
  | [], _, acc, h => by
    cases h
    exact ⟨acc.stopsI, acc.stopsR, by simp [List.foldlM, pure, Except.pure], id, id, by simp, by simp⟩
  | id :: ids, _, acc, h => by
    cases h with
    | @cons _ r _ rs hr ht =>
      have e := drawRoute_ok hw (acc := acc) hr.1 hr.2
      obtain ⟨sI, sR, h1, h2, h3, h4, h5⟩ := drawRoutes_ok hw ids rs
        ⟨acc.edgesI ++ pairs r.nodesI, acc.edgesR ++ pairs r.nodesR, r.stopsI.foldl addOnce acc.stopsI, r.stopsR.foldl addOnce acc.stopsR⟩ ht
      refine ⟨sI, sR, ?_, fun h => h2 ((foldl_addOnce _ _).2 h), fun h => h3 ((foldl_addOnce _ _).2 h), fun a => ?_, fun a => ?_⟩
      · rw [List.foldlM_cons, e]
        change ids.foldlM (drawRoute s) _ = _
        rw [h1]
        simp only [List.flatMap_cons, List.append_assoc]
      · rw [h4, (foldl_addOnce _ _).1]
        simp only [List.mem_cons, exists_eq_or_imp, or_assoc]
      · rw [h5, (foldl_addOnce _ _).1]
        simp only [List.mem_cons, exists_eq_or_imp, or_assoc]

theorem requested_exists (hw : s.Wf) : ∀ ids : List Str, (∀ id ∈ ids, id ∈ s.routeIds) → ∃ rs, Requested s ids rs
  | [], _ => ⟨[], .nil⟩
  | id :: ids, h => by
    obtain ⟨rs, hrs⟩ := requested_exists hw ids fun i hi => h i (List.mem_cons_of_mem _ hi)
    have := h id List.mem_cons_self
    rw [hw.ids] at this
    obtain ⟨r, h1, h2⟩ := List.mem_map.1 this
    exact ⟨r :: rs, .cons ⟨h1, h2⟩ hrs⟩

theorem drawRoutes_unknown (hw : s.Wf) : ∀ (ids : List Str) (acc : RouteDrawing), (∃ id ∈ ids, id ∉ s.routeIds) →
    ids.foldlM (drawRoute s) acc = .error .RouteIdNotFound
  | [], _, h => by obtain ⟨_, h, _⟩ := h; cases h
  | id :: ids, acc, h => by
    rw [List.foldlM_cons]
    by_cases hi : id ∈ s.routeIds
    · have hi' := hi
      rw [hw.ids] at hi'
      obtain ⟨r, h1, h2⟩ := List.mem_map.1 hi'
      rw [drawRoute_ok hw h1 h2]
      change ids.foldlM (drawRoute s) _ = _
      refine drawRoutes_unknown hw ids _ ?_
      obtain ⟨id', h3, h4⟩ := h
      rcases List.mem_cons.1 h3 with rfl | h3
      · exact absurd hi h4
      · exact ⟨id', h3, h4⟩
    · rw [drawRoute_unknown hi]
      rfl

/-- C83: the picture of a network is refused exactly when a route is asked for that the network does not have. -/
theorem C83_unknown_route (hr : Network.Reachable g s) (list : Option (List Str)) (direction : Option Str) :
    ((∃ id ∈ list.getD s.routeIds, ∀ r ∈ s.routes, r.id ≠ id) → plotNetwork s list direction = .error .RouteIdNotFound) ∧
    ((∀ id ∈ list.getD s.routeIds, ∃ r ∈ s.routes, r.id = id) → ∃ d, plotNetwork s list direction = .ok d) := by
  have hw := hr.wf
  have hids : ∀ id, id ∈ s.routeIds ↔ ∃ r ∈ s.routes, r.id = id := fun id => by rw [hw.ids, List.mem_map]
  constructor
  · rintro ⟨id, h1, h2⟩
    unfold plotNetwork
    rw [drawRoutes_unknown hw _ _ ⟨id, h1, fun h => by obtain ⟨r, h3, h4⟩ := (hids id).1 h; exact h2 r h3 h4⟩]
    rfl
  · intro h
    obtain ⟨rs, hrs⟩ := requested_exists hw _ fun id hid => (hids id).2 (h id hid)
    obtain ⟨sI, sR, h1, _⟩ := drawRoutes_ok hw _ rs ⟨[], [], [], []⟩ hrs
    unfold plotNetwork
    rw [h1]
    exact ⟨_, rfl⟩

/-- C83: the picture of a network with the routes asked for, in the directions asked for: the city as before; the ways of the
routes, piece by piece and route by route, in one colour for each direction; and every stop once for each direction.  When a direction
is not asked for, nothing of it is drawn; when the direction is neither `I` nor `R`, no line is drawn. -/
theorem C83_network (hr : Network.Reachable g s) (hs : CityShape g n) (hd : DistinctIds g) (hn : 1 ≤ n) {list : Option (List Str)}
    {direction : Option Str} {rs : List (Route K)} (hrs : Requested s (list.getD s.routeIds) rs) {d : Drawing K}
    (h : plotNetwork s list direction = .ok d) :
    d.ShowsCity g ∧
    d.edgesIn "lime".toList = (if direction = none ∨ direction = some "I".toList then rs.flatMap fun r => pairs r.nodesI else []) ∧
    d.edgesIn "aqua".toList = (if direction = none ∨ direction = some "R".toList then rs.flatMap fun r => pairs r.nodesR else []) ∧
    (∀ a, a ∈ d.nodesIn "yellow".toList ↔ ((direction = none ∨ direction = some "I".toList) ∧ ∃ r ∈ rs, a ∈ r.stopsI) ∨
      ((direction = none ∨ direction = some "R".toList) ∧ ∃ r ∈ rs, a ∈ r.stopsR)) ∧
    (∀ a, (d.nodesIn "yellow".toList).count a ≤ 2 ∧ (direction ≠ none → (d.nodesIn "yellow".toList).count a ≤ 1)) ∧
    (∀ a, a ∈ d.labelled ↔ (∃ nd ∈ g.nodes, nd.id = a) ∨ ∃ r ∈ rs, ∃ p ∈ pairs r.nodesI ++ pairs r.nodesR, a = p.1 ∨ a = p.2) := by
  obtain ⟨sI, sR, h1, h2, h3, h4, h5⟩ := drawRoutes_ok hr.wf _ rs ⟨[], [], [], []⟩ hrs
  unfold plotNetwork at h
  rw [h1, hr.graph] at h
  cases h
  set rd : RouteDrawing := ⟨[] ++ rs.flatMap fun r => pairs r.nodesI, [] ++ rs.flatMap fun r => pairs r.nodesR, sI, sR⟩ with hrd
  replace h2 := h2 List.nodup_nil
  replace h3 := h3 List.nodup_nil
  have key : ∀ (bI bR : Bool), drawsDirection direction "I".toList = bI → drawsDirection direction "R".toList = bR →
      (∀ k, (networkDrawing g rd direction).nodesIn (colourOf k) = idsOfKind g k) ∧
      (networkDrawing g rd direction).edgesIn "orange".toList = g.edges.map (edgeIds g) ∧
      (networkDrawing g rd direction).edgesIn "lime".toList = (if bI then rd.edgesI else []) ∧
      (networkDrawing g rd direction).edgesIn "aqua".toList = (if bR then rd.edgesR else []) ∧
      (networkDrawing g rd direction).nodesIn "yellow".toList = (if bI then sI else []) ++ (if bR then sR else []) ∧
      (networkDrawing g rd direction).labelled = (g.edges.map (edgeIds g) ++ rd.edgesI ++ rd.edgesR).foldl addEdgeNodes [] := by
    intro bI bR eI eR
    unfold networkDrawing
    rw [eI, eR]
    refine ⟨fun k => ?_, ?_, ?_, ?_, ?_, ?_⟩
    · cases k <;> cases bI <;> cases bR <;> simp [Drawing.nodesIn, colourOf]
    all_goals cases bI <;> cases bR <;> simp [Drawing.nodesIn, Drawing.edgesIn, Drawing.labelled, hrd]
  obtain ⟨k1, k2, k3, k4, k5, k6⟩ := key _ _ rfl rfl
  have hdir : ∀ d : Str, drawsDirection direction d = true ↔ (direction = none ∨ direction = some d) := by
    intro d; unfold drawsDirection; rw [decide_eq_true_eq]
  have hl : ∀ a, a ∈ (networkDrawing g rd direction).labelled ↔
      (∃ nd ∈ g.nodes, nd.id = a) ∨ ∃ r ∈ rs, ∃ p ∈ pairs r.nodesI ++ pairs r.nodesR, a = p.1 ∨ a = p.2 := by
    intro a
    rw [k6, (foldl_addEdgeNodes _ _).1, ← city_labels hs hn a]
    simp only [hrd, List.not_mem_nil, false_or, List.nil_append, List.mem_append, List.mem_flatMap]
    constructor
    · rintro ⟨p, (hp | ⟨r, h6, h7⟩) | ⟨r, h6, h7⟩, ha⟩
      · exact Or.inl ⟨p, hp, ha⟩
      · exact Or.inr ⟨r, h6, p, Or.inl h7, ha⟩
      · exact Or.inr ⟨r, h6, p, Or.inr h7, ha⟩
    · rintro (⟨p, hp, ha⟩ | ⟨r, h6, p, h7 | h7, ha⟩)
      · exact ⟨p, Or.inl (Or.inl hp), ha⟩
      · exact ⟨p, Or.inl (Or.inr ⟨r, h6, h7⟩), ha⟩
      · exact ⟨p, Or.inr ⟨r, h6, h7⟩, ha⟩
  refine ⟨⟨fun k => ?_, ?_, ?_, fun nd h => plot_positions hs hd hn h⟩, ?_, ?_, fun a => ?_, fun a => ⟨?_, fun hne => ?_⟩, hl⟩
  · rw [k1]; exact idsOfKind_spec hd k
  · rw [k2]; exact ⟨nodup_plotEdges hs hd, mem_plotEdges hs⟩
  · exact ⟨by rw [k6]; exact (foldl_addEdgeNodes _ _).2 List.nodup_nil, fun nd h => (hl _).2 (Or.inl ⟨nd, h, rfl⟩)⟩
  · rw [k3]
    simp only [hdir, hrd, List.nil_append]
  · rw [k4]
    simp only [hdir, hrd, List.nil_append]
  · rw [k5, List.mem_append]
    simp only [hdir]
    split_ifs with u v v <;> simp only [h4, h5, u, v, true_and, false_and, or_false, false_or, List.not_mem_nil]
  · rw [k5, List.count_append]
    have c1 := List.nodup_iff_count_le_one.1 h2 a
    have c2 := List.nodup_iff_count_le_one.1 h3 a
    have c0 : List.count a ([] : List Int) = 0 := List.count_nil
    split_ifs <;> omega
  · rw [k5, List.count_append]
    have c1 := List.nodup_iff_count_le_one.1 h2 a
    have c2 := List.nodup_iff_count_le_one.1 h3 a
    have : ¬ (drawsDirection direction "I".toList = true ∧ drawsDirection direction "R".toList = true) := by
      rw [hdir, hdir]
      rintro ⟨e1 | e1, e2 | e2⟩
      · exact hne e1
      · exact hne e1
      · exact hne e2
      · rw [e1] at e2
        revert e2
        decide
    split_ifs with u v v
    · exact absurd ⟨u, v⟩ this
    all_goals
      have c0 : List.count a ([] : List Int) = 0 := List.count_nil
      omega

/-- C83: when the routes asked for pass and stop at nodes of the city only, the picture can be drawn. -/
theorem C83_complete (hr : Network.Reachable g s) (hs : CityShape g n) (hd : DistinctIds g) (hn : 1 ≤ n) {list : Option (List Str)}
    {direction : Option Str} {rs : List (Route K)} (hrs : Requested s (list.getD s.routeIds) rs) {d : Drawing K}
    (h : plotNetwork s list direction = .ok d)
    (hin : ∀ r ∈ rs, ∀ a ∈ r.nodesI ++ r.nodesR ++ r.stopsI ++ r.stopsR, ∃ nd ∈ g.nodes, nd.id = a) : d.Complete := by
  have hl := (C83_network hr hs hd hn hrs h).2.2.2.2.2
  obtain ⟨sI, sR, h1, _, _, h4, h5⟩ := drawRoutes_ok hr.wf _ rs ⟨[], [], [], []⟩ hrs
  unfold plotNetwork at h
  rw [h1, hr.graph] at h
  cases h
  have hpair : ∀ (l : List Int) p, p ∈ pairs l → p.1 ∈ l ∧ p.2 ∈ l := by
    intro l
    induction l with
    | nil => intro p hp; cases hp
    | cons a t ih =>
      intro p hp
      cases t with
      | nil => cases hp
      | cons b t =>
        rw [pairs] at hp
        rcases List.mem_cons.1 hp with rfl | hp
        · exact ⟨List.mem_cons_self, List.mem_cons_of_mem _ List.mem_cons_self⟩
        · exact ⟨List.mem_cons_of_mem _ (ih p hp).1, List.mem_cons_of_mem _ (ih p hp).2⟩
  have key : ∀ a, (∃ nd ∈ g.nodes, nd.id = a) → ((plotPositions g).get? a).isSome := by
    rintro a ⟨nd, h, rfl⟩
    rw [plot_positions hs hd hn h]; rfl
  have hk : ∀ k, ∀ a ∈ idsOfKind g k, ∃ nd ∈ g.nodes, nd.id = a := fun k a h => by
    obtain ⟨nd, h1, h2, _⟩ := ((idsOfKind_spec hd k).2 a).1 h
    exact ⟨nd, h1, h2⟩
  have hsI : ∀ a ∈ sI, ∃ nd ∈ g.nodes, nd.id = a := fun a ha => by
    rcases (h4 a).1 ha with h | ⟨r, h6, h7⟩
    · cases h
    · exact hin r h6 a (by simp [h7])
  have hsR : ∀ a ∈ sR, ∃ nd ∈ g.nodes, nd.id = a := fun a ha => by
    rcases (h5 a).1 ha with h | ⟨r, h6, h7⟩
    · cases h
    · exact hin r h6 a (by simp [h7])
  have heI : ∀ a, (∃ r ∈ rs, ∃ p ∈ pairs r.nodesI, a = p.1 ∨ a = p.2) → ∃ nd ∈ g.nodes, nd.id = a := by
    rintro a ⟨r, h6, p, hp, e⟩
    refine hin r h6 a ?_
    have := hpair _ p hp
    rcases e with rfl | rfl <;> simp [this]
  have heR : ∀ a, (∃ r ∈ rs, ∃ p ∈ pairs r.nodesR, a = p.1 ∨ a = p.2) → ∃ nd ∈ g.nodes, nd.id = a := by
    rintro a ⟨r, h6, p, hp, e⟩
    refine hin r h6 a ?_
    have := hpair _ p hp
    rcases e with rfl | rfl <;> simp [this]
  intro c hc a ha
  refine key a ?_
  simp only [networkDrawing, List.mem_append, List.mem_cons, List.not_mem_nil, or_false, List.nil_append] at hc
  have hif : ∀ {b : Bool} {c' : DrawCall}, c ∈ (if b = true then [c'] else []) → c = c' := by
    intro b c' h
    cases b
    · cases h
    · exact List.mem_singleton.1 h
  rcases hc with ((((((rfl | rfl | rfl) | hc) | hc) | rfl | rfl) | hc) | hc)
  · exact hk _ a ha
  · exact hk _ a ha
  · exact hk _ a ha
  · rw [hif hc] at ha; exact hsI a ha
  · rw [hif hc] at ha; exact hsR a ha
  · have : a ∈ (networkDrawing g ⟨[] ++ rs.flatMap fun r => pairs r.nodesI, [] ++ rs.flatMap fun r => pairs r.nodesR, sI, sR⟩ direction).labelled := by
      rw [Drawing.labelled, List.mem_flatMap]
      exact ⟨.labels _, by simp only [networkDrawing, List.mem_append, List.mem_cons, List.nil_append]; exact Or.inl (Or.inl (Or.inr (Or.inl rfl))), ha⟩
    rcases (hl a).1 this with h | ⟨r, h6, p, hp, e⟩
    · exact h
    · rcases List.mem_append.1 hp with hp | hp
      · exact heI a ⟨r, h6, p, hp, e⟩
      · exact heR a ⟨r, h6, p, hp, e⟩
  · simp only [DrawCall.needs, List.mem_flatMap, List.mem_cons, List.not_mem_nil, or_false] at ha
    exact (city_labels hs hn a).1 ha
  · rw [hif hc] at ha
    simp only [DrawCall.needs, List.mem_flatMap, List.mem_cons, List.not_mem_nil, or_false] at ha
    obtain ⟨p, ⟨r, h6, h7⟩, e⟩ := ha
    exact heI a ⟨r, h6, p, h7, e⟩
  · rw [hif hc] at ha
    simp only [DrawCall.needs, List.mem_flatMap, List.mem_cons, List.not_mem_nil, or_false] at ha
    obtain ⟨p, ⟨r, h6, h7⟩, e⟩ := ha
    exact heR a ⟨r, h6, p, h7, e⟩

/-! ### concrete cases -/

section Examples

attribute [local instance] ratMath

/-- C83 needs the proviso: a route can be added whose way back passes a node that the city does not have (see C27); then the network
cannot be drawn, not even the way out of the route alone. -/
theorem C83_unknown_node_on_the_way_back : ∃ (r : Route ℚ) (s : Network ℚ) (d : Drawing ℚ),
    mkRoute (some "r".toList) demoMode (some "1,2".toList) (some "2,99,1".toList) (some "1,2".toList) (some "2,1".toList) = .ok r ∧
    (Network.init (demoCity 4)).addRoute r = (s, none) ∧ plotNetwork s none (some "I".toList) = .ok d ∧ ¬ d.Complete := by
  refine ⟨⟨"r".toList, demoMode, [1, 2], [2, 99, 1], [1, 2], [2, 1], .custom⟩,
    ⟨demoCity 4, [⟨"r".toList, demoMode, [1, 2], [2, 99, 1], [1, 2], [2, 1], .custom⟩], ["r".toList], [demoMode]⟩,
    networkDrawing (demoCity 4) ⟨[(1, 2)], [(2, 99), (99, 1)], [1, 2], [2, 1]⟩ (some "I".toList), by decide +kernel, by decide +kernel,
    by decide +kernel, ?_⟩
  unfold Drawing.Complete
  decide +kernel

/-- two lines in a city with three zones -/
def plotted : Network ℚ :=
  ⟨demoCity 3, [⟨"a".toList, demoMode, [1, 2, 0], [0, 2, 1], [1, 0], [0, 1], .custom⟩,
    ⟨"b".toList, demoMode, [3, 4, 0], [0, 4, 3], [3, 4, 0], [0, 4, 3], .custom⟩], ["a".toList, "b".toList], [demoMode]⟩

theorem plotted_reachable : Network.Reachable (demoCity 3) plotted := by
  have h := (Network.Reachable.init (g := demoCity 3)).call (.addRoute ⟨"a".toList, demoMode, [1, 2, 0], [0, 2, 1], [1, 0], [0, 1], .custom⟩)
  have h' := h.call (.addRoute ⟨"b".toList, demoMode, [3, 4, 0], [0, 4, 3], [3, 4, 0], [0, 4, 3], .custom⟩)
  have e : plotted = (NetCall.run (NetCall.run (Network.init (demoCity 3))
      (.addRoute ⟨"a".toList, demoMode, [1, 2, 0], [0, 2, 1], [1, 0], [0, 1], .custom⟩)).1
      (.addRoute ⟨"b".toList, demoMode, [3, 4, 0], [0, 4, 3], [3, 4, 0], [0, 4, 3], .custom⟩)).1 := by decide +kernel
  rw [e]
  exact h'

/-- C83: their picture, both directions and one, all routes and one -/
example : CityShape (demoCity 3) 3 ∧ DistinctIds (demoCity 3) := by
  obtain ⟨_, h⟩ := buildFromParameters_shape (K := ℚ) (n := 3) (l := 10) (g := 1/2) (p := 2) (etha := none) (ethaZone := none) (angles := none)
    (gi := none) (hi := none) (r := demoCity 3) (by decide +kernel)
  exact h

example : Requested plotted ["b".toList] [⟨"b".toList, demoMode, [3, 4, 0], [0, 4, 3], [3, 4, 0], [0, 4, 3], .custom⟩] :=
  .cons ⟨by simp [plotted], rfl⟩ .nil

example : ((plotNetwork plotted none none).toOption.map fun d => (d.edgesIn "lime".toList, d.edgesIn "aqua".toList, d.nodesIn "yellow".toList)) =
    some ([(1, 2), (2, 0), (3, 4), (4, 0)], [(0, 2), (2, 1), (0, 4), (4, 3)], [1, 0, 3, 4, 0, 1, 4, 3]) := by decide +kernel

example : ((plotNetwork plotted (some ["b".toList]) (some "R".toList)).toOption.map fun d =>
    (d.edgesIn "lime".toList, d.edgesIn "aqua".toList, d.nodesIn "yellow".toList)) = some ([], [(0, 4), (4, 3)], [0, 4, 3]) := by decide +kernel

example : plotNetwork plotted (some ["b".toList, "c".toList]) none = .error .RouteIdNotFound := by decide +kernel

example : ((plotCity (demoCity 3)).nodesIn "red".toList, (plotCity (demoCity 3)).labelled, (plotCity (demoCity 3)).position.get? 1) =
    ([1, 3, 5], [1, 2, 0, 4, 3, 6, 5], some (15, 0)) := by decide +kernel

end Examples

end Network

end Sidermit
