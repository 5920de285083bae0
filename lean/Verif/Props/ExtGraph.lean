import Verif.Proofs.ExtEdges
import Verif.Proofs.GraphReal
import Verif.Spec.RatMath
import Verif.Props.Network

/-!
# Properties of the extended graph (C34 - C36)
-/

set_option linter.unusedSectionVars false

namespace Sidermit

section Generic

variable {K : Type} [Field K] [DecidableEq K] [PyMath K] {g : Graph K} {routes : List (Route K)} {sPTP : K}
  {freq : Option (Dict Str K)} {x : ExtGraph K}

/-- the frequencies in use -/
def frequencies (routes : List (Route K)) (freq : Option (Dict Str K)) : Dict Str K :=
  match freq with
  | none => defaultFrequencies routes
  | some f => f

theorem extSpec (h : buildExtGraph g routes sPTP freq = .ok x) :
    ∃ entries, ExtSpec g routes sPTP (frequencies routes freq) x entries := by
  unfold buildExtGraph at h
  exact buildExtGraphWith_spec h

/-- the default frequency of a route -/
theorem defaultFrequencies_getD (hids : (routes.map Route.id).Nodup) {r : Route K} (hr : r ∈ routes) :
    (defaultFrequencies routes).getD r.id 0 = r.mode.fini := by
  have key : ∀ (l : List (Route K)) (d : Dict Str K), (∀ q ∈ l, q.id ≠ r.id) →
      (l.foldl (fun d q => d.set q.id q.mode.fini) d).get? r.id = d.get? r.id := by
    intro l
    induction l with
    | nil => intro d _; rfl
    | cons a t ih =>
      intro d hne
      rw [List.foldl_cons, ih _ (fun q hq => hne q (List.mem_cons_of_mem _ hq)),
        Dict.get?_set_ne _ _ (hne a List.mem_cons_self).symm]
  obtain ⟨a, b, rfl⟩ := List.append_of_mem hr
  rw [List.map_append, List.map_cons] at hids
  have hb : ∀ q ∈ b, q.id ≠ r.id := by
    intro q hq hh
    have := (List.nodup_append.1 hids).2.1
    rw [List.nodup_cons] at this
    exact this.1 (List.mem_map.2 ⟨q, hq, hh⟩)
  unfold defaultFrequencies Dict.getD
  rw [List.foldl_append, List.foldl_cons, key _ _ hb, Dict.get?_set_self]
  rfl

/-! ## C34: nodes -/

/-- C34: the construction succeeds when the stops are nodes of the city, two-way routes have node sequences, and the numbers
of lines and the speeds are not zero. -/
theorem C34_accepted (h : ∀ r ∈ routes, r.Fits g) (sPTP : K) (freq : Option (Dict Str K)) :
    ∃ x, buildExtGraph g routes sPTP freq = .ok x := by
  unfold buildExtGraph
  exact buildExtGraphWith_ok h _ _

/-- C34: a stop that is not a node of the city is never accepted. -/
theorem C34_unknown_stop_rejected {r : Route K} (hr : r ∈ routes) {d : Dir} {i : Nat} {id : Int} (hn : r.NodeAt d i id)
    (hid : ∀ c ∈ g.nodes, c.id ≠ id) (sPTP : K) (freq : Option (Dict Str K)) :
    ∀ x, buildExtGraph g routes sPTP freq ≠ .ok x := by
  intro x h
  obtain ⟨entries, hx⟩ := extSpec h
  obtain ⟨k, hk⟩ := List.mem_iff_getElem?.1 hr
  obtain ⟨e, he, e1, e2, e3⟩ := hx.ents.all _ _ _ _ _ hk hn
  have ho := hx.ents.owner e he
  rw [e1, hk] at ho
  have hroute : e.node.route = r := (Option.some.inj ho).symm
  have hat := (hx.ents.at_ e he).1
  rw [hroute, e2, e3, hn.1] at hat
  have hin := ((mem_stopNodes g routes _).1 (hx.ents.stop e he).1).1
  exact hid _ (List.mem_of_getElem? hin) (Option.some.inj hat).symm

/-- C34: there is exactly one stop node per city node and mode with a route of the mode stopping there, and the city nodes
are those with a stop node. -/
theorem C34_stop_nodes (hg : DistinctIds g) (h : buildExtGraph g routes sPTP freq = .ok x) :
    (stopsOf x.nodes).Nodup ∧ (∀ s, s ∈ stopsOf x.nodes ↔ s.Wanted g routes) ∧
    (Dict.keys x.nodes).Nodup ∧
    (∀ c, c ∈ Dict.keys x.nodes ↔ ∃ s : StopNode K, s.Wanted g routes ∧ s.city = c) ∧
    (∀ c s l, lookup2 x.nodes c s = some l → s.city = c ∧ ∀ e ∈ l, e.node.stop = s) := by
  obtain ⟨entries, hx⟩ := extSpec h
  refine ⟨hx.nodes.nodup_stops, hx.mem_stop hg, hx.nodes.ok.keys, fun c => ?_, ?_⟩
  · rw [hx.nodes.mem_cities]
    simp only [hx.mem_stop hg]
  · intro c s l hl
    unfold lookup2 at hl
    cases hc : Dict.get? x.nodes c with
    | none => simp [hc] at hl
    | some w =>
      simp only [hc, Option.bind_some] at hl
      have := (hx.nodes.city _ (Dict.mem_of_get? _ hc)).2 _ (Dict.mem_of_get? _ hl)
      exact ⟨this.1, this.2.2⟩

/-- C34: there is exactly one route node per route, direction and stop (in circular routes the first stop, which repeats
the last one, has none), and no other. -/
theorem C34_route_nodes (hg : DistinctIds g) (h : buildExtGraph g routes sPTP freq = .ok x) :
    ((entriesOf x.nodes).map RouteEntry.node).Nodup ∧
    (∀ n, n ∈ (entriesOf x.nodes).map RouteEntry.node ↔ n.Wanted g routes) ∧
    (∀ (k : Nat) r d i id, routes[k]? = some r → r.NodeAt d i id →
      ∃! n : RouteNode K, n.Wanted g routes ∧ n.ridx = k ∧ n.dir = d ∧ n.pos = i) := by
  obtain ⟨entries, hx⟩ := extSpec h
  have hmem : ∀ n, n ∈ (entriesOf x.nodes).map RouteEntry.node ↔ n.Wanted g routes := by
    intro n
    rw [← hx.mem_node hg, List.mem_map]
    simp only [hx.nodes.mem_entries]
  refine ⟨(hx.nodes.perm.map RouteEntry.node).nodup_iff.2 hx.ents.nodup, hmem, ?_⟩
  intro k r d i id hk hn
  obtain ⟨e, he, e1, e2, e3⟩ := hx.ents.all _ _ _ _ _ hk hn
  refine ⟨e.node, ⟨(hx.mem_node hg _).1 ⟨e, he, rfl⟩, e1, e2, e3⟩, ?_⟩
  rintro n ⟨hw, h1, h2, h3⟩
  obtain ⟨e', he', rfl⟩ := (hx.mem_node hg n).2 hw
  rw [hx.ents.inj e' he' e he (h1.trans e1.symm) (h2.trans e2.symm) (h3.trans e3.symm)]

/-! ## C35: access, boarding and alighting edges -/

/-- C35: the edges other than route edges.  Access edges join each stop node with its city node both ways; boarding edges
go from the stop to the route node, except at the last node of the direction, with the frequency of the route divided by
the number of lines; alighting edges go from the route node to the stop, except at the first node; circular routes have
both everywhere. -/
theorem C35_edges (hg : DistinctIds g) (h : buildExtGraph g routes sPTP freq = .ok x) (e : EEdge K) :
    (e ∈ x.edges ∧ e.type = .access ↔ ∃ s : StopNode K, s.Wanted g routes ∧
      (e = ⟨.city s.city, .stop s, s.mode.tat / 60, none, .access⟩ ∨
       e = ⟨.stop s, .city s.city, s.mode.tat / 60, none, .access⟩)) ∧
    (e ∈ x.edges ∧ e.type = .boarding ↔ ∃ n : RouteNode K, n.Wanted g routes ∧ n.CanBoard ∧
      e = ⟨.stop n.stop, .route n, 0, some ((frequencies routes freq).getD n.route.id 0 / (n.route.mode.d : K)), .boarding⟩) ∧
    (e ∈ x.edges ∧ e.type = .alighting ↔ ∃ n : RouteNode K, n.Wanted g routes ∧ n.CanAlight ∧
      e = ⟨.route n, .stop n.stop, sPTP / 60, none, .alighting⟩) := by
  obtain ⟨entries, hx⟩ := extSpec h
  have hw := hx.mem_node hg
  rw [hx.mem_edges]
  refine ⟨?_, ?_, ?_⟩
  · constructor
    · rintro ⟨⟨s, hs, h'⟩ | ⟨n, _, _, rfl⟩ | ⟨n, _, _, rfl⟩ | ⟨n, _, p, _, rfl⟩, ht⟩
      · exact ⟨s, (hx.mem_stop hg s).1 hs, h'⟩
      all_goals cases ht
    · rintro ⟨s, hs, h'⟩
      refine ⟨Or.inl ⟨s, (hx.mem_stop hg s).2 hs, h'⟩, ?_⟩
      rcases h' with rfl | rfl <;> rfl
  · constructor
    · rintro ⟨⟨s, hs, h'⟩ | ⟨n, hn, hb, rfl⟩ | ⟨n, _, _, rfl⟩ | ⟨n, _, p, _, rfl⟩, ht⟩
      · rcases h' with rfl | rfl <;> cases ht
      · exact ⟨n.node, (hw _).1 ⟨n, hn, rfl⟩, hb, rfl⟩
      all_goals cases ht
    · rintro ⟨n, hn, hb, rfl⟩
      obtain ⟨e, he, rfl⟩ := (hw n).2 hn
      exact ⟨Or.inr (Or.inl ⟨e, he, hb, rfl⟩), rfl⟩
  · constructor
    · rintro ⟨⟨s, hs, h'⟩ | ⟨n, _, _, rfl⟩ | ⟨n, hn, hb, rfl⟩ | ⟨n, _, p, _, rfl⟩, ht⟩
      · rcases h' with rfl | rfl <;> cases ht
      · cases ht
      · exact ⟨n.node, (hw _).1 ⟨n, hn, rfl⟩, hb, rfl⟩
      · cases ht
    · rintro ⟨n, hn, hb, rfl⟩
      obtain ⟨e, he, rfl⟩ := (hw n).2 hn
      exact ⟨Or.inr (Or.inr (Or.inl ⟨e, he, hb, rfl⟩)), rfl⟩

/-- C35: no two edges have the same ends. -/
theorem C35_no_parallel_edges (h : buildExtGraph g routes sPTP freq = .ok x) :
    (x.edges.map fun e => (e.i, e.j)).Nodup := by
  obtain ⟨entries, hx⟩ := extSpec h
  exact hx.edges_nodup

/-- C35: without frequencies every line runs with the initial frequency of its mode. -/
theorem C35_default_frequency (hg : DistinctIds g) (hids : (routes.map Route.id).Nodup)
    (h : buildExtGraph g routes sPTP none = .ok x) {e : EEdge K} (he : e ∈ x.edges) (hb : e.type = .boarding) :
    ∃ n : RouteNode K, n.Wanted g routes ∧ e.i = .stop n.stop ∧ e.j = .route n ∧
      e.f = some (n.route.mode.fini / (n.route.mode.d : K)) := by
  obtain ⟨n, hn, _, rfl⟩ := ((C35_edges hg h e).2.1).1 ⟨he, hb⟩
  refine ⟨n, hn, rfl, rfl, ?_⟩
  have hr : n.route ∈ routes := List.mem_of_getElem? hn.1
  simp only [frequencies]
  rw [defaultFrequencies_getD hids hr]

/-- C35: on a two-way route that does not stop twice at a node, boarding is possible at every position but the last, and
alighting at every position but the first. -/
theorem C35_ends_of_directions {n : RouteNode K} (hw : n.Wanted g routes) (hc : n.route.type ≠ .circular)
    (hfirst : (n.route.stopsOf n.dir).head? = (n.route.nodesOf n.dir).head?)
    (hlast : (n.route.stopsOf n.dir).getLast? = (n.route.nodesOf n.dir).getLast?)
    (hnd : (n.route.stopsOf n.dir).Nodup) :
    (n.CanBoard ↔ n.pos + 1 ≠ (n.route.stopsOf n.dir).length) ∧ (n.CanAlight ↔ n.pos ≠ 0) := by
  obtain ⟨_, ⟨hat, _⟩, _, _⟩ := hw
  obtain ⟨hlt, hget⟩ := List.getElem?_eq_some_iff.1 hat
  unfold RouteNode.CanBoard RouteNode.CanAlight
  rw [← hfirst, ← hlast, List.getLast?_eq_getElem?, List.head?_eq_getElem?]
  have hl : (n.route.stopsOf n.dir).length - 1 < (n.route.stopsOf n.dir).length := by omega
  have h0 : 0 < (n.route.stopsOf n.dir).length := by omega
  rw [List.getElem?_eq_getElem hl, List.getElem?_eq_getElem h0, ← hget]
  simp only [hc, false_or, ne_eq, Option.some.injEq, hnd.getElem_inj_iff]
  constructor
  · omega
  · omega

/-! ## C36: route edges -/

/-- C36: the route edges are one from each route node to the next one of the same route and direction (in circular routes
also from the last to the first). -/
theorem C36_route_edges (hg : DistinctIds g) (h : buildExtGraph g routes sPTP freq = .ok x) :
    (∀ e, e ∈ x.edges → e.type = .route → ∃ p n : RouteNode K, p.Wanted g routes ∧ n.Wanted g routes ∧ p.Precedes n ∧
      e.i = .route p ∧ e.j = .route n ∧ e.f = none) ∧
    (∀ p n : RouteNode K, p.Wanted g routes → n.Wanted g routes → p.Precedes n →
      ∃! e, e ∈ x.edges ∧ e.i = .route p ∧ e.j = .route n) := by
  obtain ⟨entries, hx⟩ := extSpec h
  have hw := hx.mem_node hg
  constructor
  · intro e he ht
    rw [hx.mem_edges] at he
    rcases he with ⟨s, hs, h'⟩ | ⟨n, _, _, rfl⟩ | ⟨n, _, _, rfl⟩ | ⟨n, hn, p, hp, rfl⟩
    · rcases h' with rfl | rfl <;> cases ht
    · cases ht
    · cases ht
    · have := (hx.ents.prev n hn p).1 hp
      exact ⟨p, n.node, (hw _).1 this.1, (hw _).1 ⟨n, hn, rfl⟩, this.2, rfl, rfl, rfl⟩
  · intro p n hp hn hpn
    obtain ⟨e, he, rfl⟩ := (hw n).2 hn
    have hprev := (hx.ents.prev e he p).2 ⟨(hw p).2 hp, hpn⟩
    refine ⟨⟨.route p, .route e.node, legDistance (x.nodes.map fun p => p.1.node) p e.node / e.node.stop.mode.v, none,
      .route⟩, ⟨(hx.mem_edges _).2 (Or.inr (Or.inr (Or.inr ⟨e, he, p, hprev, rfl⟩))), rfl, rfl⟩, ?_⟩
    rintro y ⟨hy, h1, h2⟩
    refine List.inj_on_of_nodup_map hx.edges_nodup hy
      ((hx.mem_edges _).2 (Or.inr (Or.inr (Or.inr ⟨e, he, p, hprev, rfl⟩)))) ?_
    simp [h1, h2]

open Classical in
theorem foundNodes_served (hg : DistinctIds g) (h : buildExtGraph g routes sPTP freq = .ok x) {ns : List (Node K)}
    (hns : ∀ m ∈ ns, m ∈ g.nodes) :
    foundNodes (x.nodes.map fun p => p.1.node) (ns.map Node.id) = ns.filter (fun m => decide (Served g routes m)) := by
  have hkeys := (C34_stop_nodes hg h).2.2.2.1
  have hcity : ∀ c : CityNode K, (∃ s : StopNode K, s.Wanted g routes ∧ s.city = c) → c.In g := by
    rintro c ⟨s, hs, rfl⟩; exact hs.1
  have hfind : ∀ m ∈ g.nodes, (x.nodes.map fun p => p.1.node).find? (fun n => decide (m.id = n.id)) =
      if Served g routes m then some m else none := by
    intro m hm
    obtain ⟨j, hj⟩ := List.mem_iff_getElem?.1 hm
    have hmIn : (⟨j, m⟩ : CityNode K).In g := hj
    split
    · rename_i hs
      obtain ⟨s, hs, hsm⟩ := hs
      have hk : s.city ∈ Dict.keys x.nodes := (hkeys _).2 ⟨s, hs, rfl⟩
      have hmem : m ∈ x.nodes.map fun p => p.1.node := by
        obtain ⟨p, hp, hpc⟩ := List.mem_map.1 hk
        exact List.mem_map.2 ⟨p, hp, by rw [hpc, hsm]⟩
      cases hf : (x.nodes.map fun p => p.1.node).find? (fun n => decide (m.id = n.id)) with
      | none =>
        rw [List.find?_eq_none] at hf
        exact absurd (hf m hmem) (by simp)
      | some m' =>
        have h1 := List.mem_of_find?_eq_some hf
        have h2 := List.find?_some hf
        obtain ⟨p, hp, rfl⟩ := List.mem_map.1 h1
        have h3 : p.1.In g := hcity _ ((hkeys _).1 (List.mem_map.2 ⟨p, hp, rfl⟩))
        have := CityNode.In.ext hg hmIn h3 (by simpa using h2)
        rw [← this]
    · rename_i hs
      rw [List.find?_eq_none]
      intro m' hm' hid
      obtain ⟨p, hp, rfl⟩ := List.mem_map.1 hm'
      obtain ⟨s, hs', hsc⟩ := (hkeys _).1 (List.mem_map.2 ⟨p, hp, rfl⟩)
      have h3 : p.1.In g := hcity _ ⟨s, hs', hsc⟩
      have := CityNode.In.ext hg hmIn h3 (by simpa using hid)
      exact hs ⟨s, hs', by rw [hsc, ← this]⟩
  unfold foundNodes
  rw [List.filterMap_map]
  clear hkeys hcity
  induction ns with
  | nil => rfl
  | cons m t ih =>
    have hm := hfind m (hns m List.mem_cons_self)
    have iht := ih (fun m hm => hns m (List.mem_cons_of_mem _ hm))
    simp only [List.filterMap_cons, Function.comp, hm]
    by_cases hs : Served g routes m
    · simp only [hs, if_true, List.filter_cons, decide_true]
      rw [← iht]; rfl
    · simp only [hs, if_false, List.filter_cons, decide_false]
      rw [← iht]; rfl

open Classical in
/-- C36, what the code computes: when the node sequence runs from one stop to the next one, the time of the edge is the
length of the way through those intermediate nodes where some route stops, divided by the speed. -/
theorem C36_leg_time_served_nodes (hg : DistinctIds g) (h : buildExtGraph g routes sPTP freq = .ok x)
    {e : EEdge K} (he : e ∈ x.edges) {p n : RouteNode K} (hi : e.i = .route p) (hj : e.j = .route n)
    {pre post : List Int} {ns : List (Node K)} (hns : ∀ m ∈ ns, m ∈ g.nodes)
    (hseq : n.route.nodesOf n.dir = pre ++ p.stop.city.node.id :: (ns.map Node.id ++ n.stop.city.node.id :: post))
    (hnd : (n.route.nodesOf n.dir).Nodup) :
    e.t = travelled (p.stop.city.node :: (ns.filter (fun m => decide (Served g routes m)) ++ [n.stop.city.node])) /
      n.stop.mode.v := by
  obtain ⟨entries, hx⟩ := extSpec h
  rw [hx.mem_edges] at he
  rcases he with ⟨s, hs, h'⟩ | ⟨m, _, _, rfl⟩ | ⟨m, _, _, rfl⟩ | ⟨m, hm, q, hq, rfl⟩
  · rcases h' with rfl | rfl <;> cases hi
  · cases hi
  · cases hj
  · simp only [ENode.route.injEq] at hi hj
    subst hi hj
    simp only
    rw [hseq] at hnd
    rw [← foundNodes_served hg h hns, ← legLoop_inOrder _ _ _ _ _ _ hnd]
    unfold legDistance
    rw [hseq]

/-- C36 (partial: every intermediate node must be a stop of some route): the time of a route edge is the length of the way
travelled between the two stops divided by the speed of the mode. -/
theorem C36_leg_time_partial (hg : DistinctIds g) (h : buildExtGraph g routes sPTP freq = .ok x)
    {e : EEdge K} (he : e ∈ x.edges) {p n : RouteNode K} (hi : e.i = .route p) (hj : e.j = .route n)
    {pre post : List Int} {ns : List (Node K)} (hns : ∀ m ∈ ns, m ∈ g.nodes)
    (hseq : n.route.nodesOf n.dir = pre ++ p.stop.city.node.id :: (ns.map Node.id ++ n.stop.city.node.id :: post))
    (hnd : (n.route.nodesOf n.dir).Nodup) (hserved : ∀ m ∈ ns, Served g routes m) :
    e.t = travelled (p.stop.city.node :: (ns ++ [n.stop.city.node])) / n.stop.mode.v := by
  classical
  rw [C36_leg_time_served_nodes hg h he hi hj hns hseq hnd, List.filter_eq_self.2 (by simpa using hserved)]

/-- C36: when the stops are in travel order, the node sequence does run from each stop to the next one. -/
theorem C36_stops_in_order {p n : RouteNode K} (hp : p.Wanted g routes) (hn : n.Wanted g routes) (hpn : p.Precedes n)
    (hc : n.route.type ≠ .circular) (hsub : (n.route.stopsOf n.dir).Sublist (n.route.nodesOf n.dir)) :
    ∃ pre mid post, n.route.nodesOf n.dir = pre ++ p.stop.city.node.id :: (mid ++ n.stop.city.node.id :: post) := by
  obtain ⟨h1, h2, h3⟩ := hpn
  have hr : p.route = n.route := by
    have := hp.1
    rw [h1, hn.1] at this
    exact (Option.some.inj this).symm
  unfold Route.stopBefore at h3
  rw [if_neg hc] at h3
  split at h3
  · cases h3
  · rename_i h0
    have hpos : n.pos = p.pos + 1 := by
      have := Option.some.inj h3; omega
    have ha := hp.2.1.1
    rw [hr, h2] at ha
    have hb := hn.2.1.1
    rw [hpos] at hb
    exact sublist_split hsub ha hb

/-- C36: on a ring (a circular route that stops everywhere) the time between consecutive stops is their distance divided by
the speed. -/
theorem C36_ring_leg_time (hg : DistinctIds g) (h : buildExtGraph g routes sPTP freq = .ok x)
    {e : EEdge K} (he : e ∈ x.edges) {p n : RouteNode K} (hi : e.i = .route p) (hj : e.j = .route n)
    (hc : n.route.type = .circular) {a : Int} {l : List Int} (hl : l ≠ []) (hnodes : n.route.nodesOf n.dir = a :: (l ++ [a]))
    (hstops : n.route.stopsOf n.dir = a :: (l ++ [a])) (hnd : (a :: l).Nodup) :
    e.t = nodeDistance p.stop.city.node n.stop.city.node / n.stop.mode.v := by
  obtain ⟨entries, hx⟩ := extSpec h
  have hw := hx.mem_node hg
  rw [hx.mem_edges] at he
  rcases he with ⟨s, hs, h'⟩ | ⟨m, _, _, rfl⟩ | ⟨m, _, _, rfl⟩ | ⟨m, hm, q, hq, rfl⟩
  · rcases h' with rfl | rfl <;> cases hi
  · cases hi
  · cases hj
  · simp only [ENode.route.injEq] at hi hj
    subst hi hj
    simp only
    obtain ⟨hq1, hq2, hq3, hq4⟩ := (hx.ents.prev m hm q).1 hq
    have hqw := (hw q).1 hq1
    have hmw := (hw m.node).1 ⟨m, hm, rfl⟩
    have hr : q.route = m.node.route := by
      have := hqw.1
      rw [hq2, hmw.1] at this
      exact (Option.some.inj this).symm
    have hA := hqw.2.1
    rw [hr, hq3] at hA
    have hB := hmw.2.1
    have hA0 := hA.2 hc
    have hB0 := hB.2 hc
    have hA' := hA.1
    have hB' := hB.1
    rw [hstops] at hA' hB'
    unfold Route.stopBefore at hq4
    rw [if_pos hc, hstops] at hq4
    have hlen : (a :: (l ++ [a])).length = l.length + 2 := by simp
    rw [hlen] at hq4
    have hBlt := (List.getElem?_eq_some_iff.1 hB').1
    have hAlt := (List.getElem?_eq_some_iff.1 hA').1
    rw [hlen] at hBlt hAlt
    have hq4' := Option.some.inj hq4
    have hlpos : 0 < l.length := List.length_pos_of_ne_nil hl
    rw [List.nodup_cons] at hnd
    congr 1
    unfold legDistance
    rw [hnodes]
    -- the ring without its end
    have hget : ∀ i, i < l.length + 2 → i ≠ 0 → (a :: (l ++ [a]))[i]? = if i = l.length + 1 then some a else l[i - 1]? := by
      intro i hi h0
      obtain ⟨k, rfl⟩ := Nat.exists_eq_succ_of_ne_zero h0
      simp only [List.getElem?_cons_succ, Nat.succ_eq_add_one, Nat.add_right_cancel_iff, Nat.add_sub_cancel]
      by_cases hk : k = l.length
      · simp [hk]
      · rw [if_neg hk, List.getElem?_append_left (by omega)]
    rw [hget _ hBlt hB0] at hB'
    rw [hget _ hAlt hA0] at hA'
    by_cases h1 : m.node.pos = 1
    · -- from the last stop, which is the first node, to the next one
      rw [if_pos h1] at hq4'
      rw [if_pos (by omega)] at hA'
      rw [if_neg (by omega), h1] at hB'
      obtain ⟨b, t, rfl⟩ := List.exists_cons_of_ne_nil hl
      have hAa : q.stop.city.node.id = a := (Option.some.inj hA').symm
      have hBb : m.node.stop.city.node.id = b := by simpa using hB'.symm
      have hab : a ≠ b := fun hh => hnd.1 (by simp [hh])
      rw [← hAa, ← hBb]
      rw [← hAa, ← hBb] at hab
      rw [legLoop, if_pos rfl, List.cons_append, legLoop, if_neg (Ne.symm hab), if_pos rfl, zero_add]
      rfl
    · rw [if_neg h1] at hq4'
      rw [if_neg (by omega)] at hA'
      have hAl : q.stop.city.node.id ∈ l := List.mem_of_getElem? hA'
      by_cases h2 : m.node.pos = l.length + 1
      · -- back to the first node
        rw [if_pos h2] at hB'
        have hBa : m.node.stop.city.node.id = a := (Option.some.inj hB').symm
        have hab : q.stop.city.node.id ≠ m.node.stop.city.node.id := fun hh => hnd.1 (by rw [← hBa, ← hh]; exact hAl)
        rw [← hBa]
        exact legLoop_closing _ _ _ _ hab
      · rw [if_neg h2] at hB'
        -- consecutive nodes inside
        have hd : l.drop (q.pos - 1) = q.stop.city.node.id :: m.node.stop.city.node.id :: l.drop (q.pos - 1 + 2) := by
          obtain ⟨k1, e1⟩ := List.getElem?_eq_some_iff.1 hA'
          have hB2 : l[q.pos - 1 + 1]? = some m.node.stop.city.node.id := by rw [← hB']; congr 1; omega
          obtain ⟨k2, e2⟩ := List.getElem?_eq_some_iff.1 hB2
          rw [List.drop_eq_getElem_cons k1, List.drop_eq_getElem_cons k2, e1, e2]
        have hsplit : l = l.take (q.pos - 1) ++ q.stop.city.node.id :: (m.node.stop.city.node.id :: l.drop (q.pos - 1 + 2)) := by
          rw [← hd, List.take_append_drop]
        have hBl : m.node.stop.city.node.id ∈ l := by rw [hsplit]; simp
        have hnd2 := hnd.2
        rw [hsplit, List.nodup_append] at hnd2
        obtain ⟨_, hn2, hn3⟩ := hnd2
        have hApre : q.stop.city.node.id ∉ a :: l.take (q.pos - 1) := by
          intro hh
          rcases List.mem_cons.1 hh with hh | hh
          · exact hnd.1 (hh ▸ hAl)
          · exact hn3 _ hh _ List.mem_cons_self rfl
        have hBpre : m.node.stop.city.node.id ∉ a :: l.take (q.pos - 1) := by
          intro hh
          rcases List.mem_cons.1 hh with hh | hh
          · exact hnd.1 (hh ▸ hBl)
          · exact hn3 _ hh m.node.stop.city.node.id (by simp) rfl
        have hab : q.stop.city.node.id ≠ m.node.stop.city.node.id := by
          intro hh
          rw [hh] at hn2
          simp at hn2
        have hseq : a :: (l ++ [a]) = (a :: l.take (q.pos - 1)) ++ q.stop.city.node.id ::
            (m.node.stop.city.node.id :: (l.drop (q.pos - 1 + 2) ++ [a])) := by
          conv_lhs => rw [hsplit]
          simp
        rw [hseq, legLoop_before _ _ _ _ _ _ _ _ hApre hBpre, legLoop, if_pos rfl, legLoop, if_neg (Ne.symm hab),
          if_pos rfl, zero_add]
        rfl

end Generic

/-! ## C36: nodes without stops are skipped -/

section Skipped

/-- the geometry of the witness: four zones at right angles -/
noncomputable def squareGeo : Geo ℝ := docGeo 4 10 (1/2) none none none none none

/-- the nodes of the witness -/
noncomputable def squareNode (j : Nat) : Node ℝ := nodeAt squareGeo 2 j

theorem squareNode_0 : (squareNode 0).x = 0 ∧ (squareNode 0).y = 0 := by
  simp [squareNode, nodeAt, squareGeo, docGeo]

theorem squareNode_2 : (squareNode 2).x = 10 ∧ (squareNode 2).y = 0 := by
  simp [squareNode, nodeAt, squareGeo, docGeo, PyMath.cosDeg, PyMath.sinDeg]

theorem squareNode_4 : (squareNode 4).x = 0 ∧ (squareNode 4).y = 10 := by
  have h : (360 / 4 * 1 * Real.pi / 180 : ℝ) = Real.pi / 2 := by ring
  constructor
  · simp only [squareNode, nodeAt, squareGeo, docGeo, PyMath.cosDeg]
    norm_num
    rw [show (90 * Real.pi / 180 : ℝ) = Real.pi / 2 by ring, Real.cos_pi_div_two]
  · simp only [squareNode, nodeAt, squareGeo, docGeo, PyMath.sinDeg]
    norm_num
    rw [show (90 * Real.pi / 180 : ℝ) = Real.pi / 2 by ring, Real.sin_pi_div_two]

/-- C36 fails for the code: on a route from one subcentre through the CBD to another one, with no stop at the CBD by any
route, the edge between the two stops takes less than the way travelled divided by the speed. -/
theorem C36_skipped_nodes (m : Mode ℝ) (hd : m.d ≠ 0) (hv : 0 < m.v) (sPTP : ℝ) (freq : Option (Dict Str ℝ)) :
    ∃ g r x e p n a b c,
      buildFromParameters (K := ℝ) 4 10 (1/2) 2 none none none none none = .ok g ∧
      mkRoute (some "r".toList) m (some "2,0,4".toList) (some "4,0,2".toList) (some "2,4".toList) (some "4,2".toList) = .ok r ∧
      buildExtGraph g [r] sPTP freq = .ok x ∧ e ∈ x.edges ∧ e.i = .route p ∧ e.j = .route n ∧ p.dir = .I ∧ n.dir = .I ∧
      p.stop.city.node = a ∧ b ∈ g.nodes ∧ n.stop.city.node = c ∧ [a, b, c].map Node.id = r.nodesI ∧
      e.t < travelled [a, b, c] / m.v := by
  have hok : CityParamsOk (K := ℝ) ((4 : Nat) : Int) 10 (1/2) 2 none none none none none :=
    ⟨by omega, by norm_num, by norm_num, by norm_num, Or.inl ⟨rfl, rfl⟩, by simp, by simp, by simp⟩
  obtain ⟨g, hg, hgn⟩ : ∃ g, buildFromParameters (K := ℝ) 4 10 (1/2) 2 none none none none none = .ok g ∧
      g.nodes = cityNodes squareGeo 2 4 := ⟨_, buildFromParameters_eq hok, rfl⟩
  have hdist := (buildFromParameters_shape hg).2.2
  have hr := (C23_custom_route_of_lists "r".toList m [2, 0, 4] [4, 0, 2] [2, 4] [4, 2]).1 (by constructor <;> decide)
  set r : Route ℝ := ⟨"r".toList, m, [2, 0, 4], [4, 0, 2], [2, 4], [4, 2], .custom⟩ with hrdef
  have hnode : ∀ j, j < 9 → g.nodes[j]? = some (squareNode j) := by
    intro j hj
    rw [hgn, cityNodes, List.getElem?_map, List.getElem?_range (by omega)]
    rfl
  have hid : ∀ j, 0 < j → (squareNode j).id = j := by
    intro j hj
    unfold squareNode nodeAt
    rw [if_neg (by omega)]
    split <;> rfl
  have hid0 : (squareNode 0).id = 0 := by simp [squareNode, nodeAt]
  have h2 : (⟨2, squareNode 2⟩ : CityNode ℝ).In g := hnode 2 (by omega)
  have h4 : (⟨4, squareNode 4⟩ : CityNode ℝ).In g := hnode 4 (by omega)
  have hstops : ∀ d i id, r.NodeAt d i id → id = 2 ∨ id = 4 := by
    intro d i id h
    have := List.mem_of_getElem? h.1
    cases d <;> simp [Route.stopsOf, hrdef] at this <;> omega
  have hfits : r.Fits g := by
    refine ⟨?_, ?_, ?_, ?_⟩
    · intro d i id h
      rcases hstops d i id h with rfl | rfl
      · exact ⟨_, List.mem_of_getElem? h2, hid 2 (by omega)⟩
      · exact ⟨_, List.mem_of_getElem? h4, hid 4 (by omega)⟩
    · intro _ d i id _
      cases d <;> simp [Route.nodesOf, hrdef]
    · exact_mod_cast hd
    · exact ne_of_gt hv
  obtain ⟨x, hx⟩ := C34_accepted (routes := [r]) (by simpa using hfits) sPTP freq
  let p : RouteNode ℝ := ⟨0, r, .I, 0, ⟨m, ⟨2, squareNode 2⟩⟩⟩
  let n : RouteNode ℝ := ⟨0, r, .I, 1, ⟨m, ⟨4, squareNode 4⟩⟩⟩
  have hp : p.Wanted g [r] := ⟨rfl, ⟨by simp [p, Route.stopsOf, hrdef, hid], by simp [p, hrdef]⟩, rfl, h2⟩
  have hn : n.Wanted g [r] := ⟨rfl, ⟨by simp [n, Route.stopsOf, hrdef, hid], by simp [n, hrdef]⟩, rfl, h4⟩
  have hpn : p.Precedes n := ⟨rfl, rfl, rfl⟩
  obtain ⟨e, ⟨he, hi, hj⟩, _⟩ := (C36_route_edges hdist hx).2 p n hp hn hpn
  refine ⟨g, r, x, e, p, n, squareNode 2, squareNode 0, squareNode 4, hg, hr, hx, he, hi, hj, rfl, rfl, rfl,
    List.mem_of_getElem? (hnode 0 (by omega)), rfl, ?_, ?_⟩
  · simp [hid0, hid, hrdef]
  · classical
    have ht := C36_leg_time_served_nodes hdist hx he hi hj (pre := []) (post := []) (ns := [squareNode 0])
      (by intro m hm; rw [List.mem_singleton.1 hm]; exact List.mem_of_getElem? (hnode 0 (by omega)))
      (by simp [p, n, Route.nodesOf, hrdef, hid, hid0]) (by simp [n, Route.nodesOf, hrdef])
    have hns : ¬ Served g [r] (squareNode 0) := by
      rintro ⟨s, ⟨_, r', hr', _, d, i, hat⟩, hs⟩
      rw [List.mem_singleton] at hr'
      rw [hr', hs, hid0] at hat
      rcases hstops d i 0 hat with h | h <;> omega
    rw [ht]
    apply div_lt_div_of_pos_right _ hv
    simp only [List.filter_cons, hns, decide_false, List.filter_nil, p, n]
    simp only [travelled, pairs, List.nil_append, List.map_cons, List.map_nil, List.sum_cons, List.sum_nil, nodeDistance,
      squareNode_0, squareNode_2, squareNode_4, add_zero, PyMath.sqrt, Bool.false_eq_true, if_false]
    have h1 : Real.sqrt ((10 - 0) ^ 2 + (0 - 0) ^ 2) = 10 := by
      rw [show ((10 - 0) ^ 2 + (0 - 0) ^ 2 : ℝ) = 10 ^ 2 by norm_num, Real.sqrt_sq (by norm_num)]
    have h2 : Real.sqrt ((0 - 0) ^ 2 + (0 - 10) ^ 2) = 10 := by
      rw [show ((0 - 0) ^ 2 + (0 - 10) ^ 2 : ℝ) = 10 ^ 2 by norm_num, Real.sqrt_sq (by norm_num)]
    rw [h1, h2, Real.sqrt_lt' (by norm_num)]
    norm_num

end Skipped

/-! ## Examples -/

section Examples

attribute [local instance] ratMath ratText

/-- a network with two two-way routes of two modes and a ring -/
def demoRoutes : List (Route ℚ) :=
  [⟨"a".toList, demoMode, [1, 2, 0], [0, 2, 1], [1, 2, 0], [0, 2, 1], .custom⟩,
   ⟨"b".toList, { demoMode with oid := 2, name := "metro".toList, d := 2 }, [1, 2, 0, 4], [4, 0, 2, 1], [1, 4], [4, 1], .custom⟩,
   ⟨"c".toList, demoMode, [2, 4, 6, 2], [], [2, 4, 6, 2], [], .circular⟩]

/-- the hypotheses of C34-C36 hold for it -/
example : DistinctIds (demoCity 3) := by unfold DistinctIds; decide +kernel

example : (buildExtGraph (demoCity 3) demoRoutes 2 none).toOption.map
    (fun x => (x.nodes.length, (stopsOf x.nodes).length, (entriesOf x.nodes).length, x.edges.length)) =
    some (5, 7, 13, 41) := by decide +kernel

example : ∀ r ∈ demoRoutes, r.Fits (demoCity 3) := by
  intro r hr
  refine ⟨?_, ?_, ?_, ?_⟩
  · intro d i id h
    have hid : id ∈ r.stopsOf d := List.mem_of_getElem? h.1
    have key : ∀ r ∈ demoRoutes, ∀ d ∈ [Dir.I, Dir.R], ∀ id ∈ r.stopsOf d, ∃ c ∈ (demoCity 3).nodes, c.id = id := by
      decide +kernel
    exact key r hr d (by cases d <;> simp) id hid
  · intro _ d i id _
    have key : ∀ r ∈ demoRoutes, r.type ≠ .circular → ∀ d ∈ [Dir.I, Dir.R], r.nodesOf d ≠ [] := by decide +kernel
    exact key r hr (by assumption) d (by cases d <;> simp)
  · revert r; decide +kernel
  · revert r; decide +kernel

/-- an unknown stop -/
example : buildExtGraph (demoCity 3) [⟨"a".toList, demoMode, [1, 9], [9, 1], [1, 9], [9, 1], .custom⟩] 2 none =
    .error .AttributeError := by decide +kernel

/-- the hypotheses of `C35_default_frequency` -/
example : (demoRoutes.map Route.id).Nodup ∧ ((buildExtGraph (demoCity 3) demoRoutes 2 none).toOption.map fun x =>
    decide (∃ e ∈ x.edges, e.type = .boarding)) = some true := by decide +kernel

/-- zero parallel lines -/
example : buildExtGraph (demoCity 3) [⟨"a".toList, { demoMode with d := 0 }, [1, 2], [2, 1], [1, 2], [2, 1], .custom⟩] 2 none =
    .error .ZeroDivisionError := by decide +kernel

end Examples

end Sidermit
