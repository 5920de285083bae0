import Verif.Proofs.ExtGraph

set_option linter.unusedSectionVars false
set_option linter.unusedSimpArgs false
set_option linter.unusedVariables false

namespace Sidermit

variable {K : Type} [Field K] [DecidableEq K]

theorem mem_flatten_mapM {α β : Type} {f : α → Py (List β)} {l : List α} {r : List (List β)} (h : l.mapM f = .ok r) (b : β) :
    b ∈ r.flatten ↔ ∃ a ∈ l, ∃ bs, f a = .ok bs ∧ b ∈ bs := by
  rw [mapM_forall₂] at h
  induction h with
  | nil => simp
  | cons h1 _ ih =>
    rw [List.flatten_cons, List.mem_append, ih]
    simp only [List.mem_cons, exists_eq_or_imp]
    constructor
    · rintro (h | h)
      exacts [Or.inl ⟨_, h1, h⟩, Or.inr h]
    · rintro (⟨bs, h2, h⟩ | h)
      · rw [h1] at h2; cases h2; exact Or.inl h
      · exact Or.inr h

theorem pyDiv_eq_ok {a b c : K} : pyDiv a b = .ok c ↔ b ≠ 0 ∧ c = a / b := by
  unfold pyDiv
  split
  · simp_all
  · rename_i h; simp [h, eq_comm]

theorem mem_accessEdges (nodes : ENodes K) {entries : List (RouteEntry K)} (h : ENodesSpec entries nodes) (e : EEdge K) :
    e ∈ accessEdges nodes ↔ ∃ s ∈ stopsOf nodes,
      e = ⟨.city s.city, .stop s, s.mode.tat / 60, none, .access⟩ ∨
      e = ⟨.stop s, .city s.city, s.mode.tat / 60, none, .access⟩ := by
  unfold accessEdges stopsOf accessPair
  simp only [List.mem_flatMap, Dict.keys, List.mem_map, List.mem_cons, List.not_mem_nil, or_false]
  constructor
  · rintro ⟨p, hp, s, ⟨q, hq, rfl⟩, h'⟩
    have := ((h.city p hp).2 q hq).1
    rw [← this] at h'
    exact ⟨q.1, ⟨p, hp, q, hq, rfl⟩, h'⟩
  · rintro ⟨s, ⟨p, hp, q, hq, rfl⟩, h'⟩
    have := ((h.city p hp).2 q hq).1
    rw [this] at h'
    exact ⟨p, hp, q.1, ⟨q, hq, rfl⟩, h'⟩

theorem boardingStep_spec {freq : Dict Str K} {e : RouteEntry K} {l : List (EEdge K)} (h : boardingStep freq e = .ok l)
    (x : EEdge K) : x ∈ l ↔ e.node.CanBoard ∧
      x = ⟨.stop e.node.stop, .route e.node, 0, some (freq.getD e.node.route.id 0 / (e.node.route.mode.d : K)), .boarding⟩ := by
  unfold boardingStep boardingEdge at h
  unfold RouteNode.CanBoard
  split at h
  · rename_i hc
    simp only [py_bind_eq_ok, py_pure, Except.ok.injEq, pyDiv_eq_ok] at h
    obtain ⟨y, ⟨f, ⟨_, rfl⟩, rfl⟩, rfl⟩ := h
    simp [hc]
  · rename_i hc
    cases hl : (e.node.route.nodesOf e.node.dir).getLast? with
    | none => simp [hl] at h
    | some z =>
      simp only [hl] at h
      split at h
      · rename_i hz
        simp only [py_bind_eq_ok, py_pure, Except.ok.injEq, pyDiv_eq_ok] at h
        obtain ⟨y, ⟨f, ⟨_, rfl⟩, rfl⟩, rfl⟩ := h
        simp only [List.mem_singleton, hc, Option.some.injEq, false_or, ne_eq]
        exact ⟨fun h => ⟨fun h' => hz h'.symm, h⟩, fun h => h.2⟩
      · rename_i hz
        cases h
        simp only [ne_eq, not_not] at hz
        simp [hc, hz]

theorem alightingStep_spec {spt : K} {e : RouteEntry K} {l : List (EEdge K)} (h : alightingStep spt e = .ok l)
    (x : EEdge K) : x ∈ l ↔ e.node.CanAlight ∧ x = ⟨.route e.node, .stop e.node.stop, spt, none, .alighting⟩ := by
  unfold alightingStep alightingEdge at h
  unfold RouteNode.CanAlight
  split at h
  · rename_i hc
    cases h
    simp [hc]
  · rename_i hc
    cases hl : (e.node.route.nodesOf e.node.dir).head? with
    | none => simp [hl] at h
    | some z =>
      simp only [hl] at h
      split at h
      · rename_i hz
        cases h
        simp only [List.mem_singleton, hc, Option.some.injEq, false_or, ne_eq]
        exact ⟨fun h => ⟨fun h' => hz h'.symm, h⟩, fun h => h.2⟩
      · rename_i hz
        cases h
        simp only [ne_eq, not_not] at hz
        simp [hc, hz]

variable [PyMath K]

theorem routeStep_spec {nodes : List (Node K)} {e : RouteEntry K} {l : List (EEdge K)} (h : routeStep nodes e = .ok l)
    (x : EEdge K) : x ∈ l ↔ ∃ p, e.prev = some p ∧
      x = ⟨.route p, .route e.node, legDistance nodes p e.node / e.node.stop.mode.v, none, .route⟩ := by
  unfold routeStep at h
  cases hp : e.prev with
  | none => simp only [hp, Except.ok.injEq] at h; subst h; simp
  | some p =>
    simp only [hp, py_bind_eq_ok, py_pure, Except.ok.injEq, pyDiv_eq_ok] at h
    obtain ⟨t, ⟨_, rfl⟩, rfl⟩ := h
    simp

/-- everything known about a constructed extended graph -/
structure ExtSpec (g : Graph K) (routes : List (Route K)) (sPTP : K) (freq : Dict Str K) (x : ExtGraph K)
    (entries : List (RouteEntry K)) : Prop where
  ents : EntriesSpec (buildStopNodes (buildTreeGraph routes (buildCityNodes g))) routes entries
  nodes : ENodesSpec entries x.nodes
  edges : ∃ b a r, x.edges = accessEdges x.nodes ++ b ++ a ++ r ∧ boardingEdges x.nodes freq = .ok b ∧
    alightingEdges x.nodes sPTP = .ok a ∧ routeEdges x.nodes = .ok r

theorem buildExtGraphWith_spec {g : Graph K} {routes : List (Route K)} {sPTP : K} {freq : Dict Str K} {x : ExtGraph K}
    (h : buildExtGraphWith g routes sPTP freq = .ok x) : ∃ entries, ExtSpec g routes sPTP freq x entries := by
  unfold buildExtGraphWith at h
  simp only [py_bind_eq_ok, py_pure, Except.ok.injEq] at h
  obtain ⟨entries, he, b, hb, a, ha, r, hr, rfl⟩ := h
  exact ⟨entries, buildRouteNodes_spec he, buildExtendedNodes_spec _, b, a, r, rfl, hb, ha, hr⟩

variable {g : Graph K} {routes : List (Route K)} {sPTP : K} {freq : Dict Str K} {x : ExtGraph K}
  {entries : List (RouteEntry K)}

/-- the route nodes of the extended graph are the wanted ones -/
theorem ExtSpec.mem_node (h : ExtSpec g routes sPTP freq x entries) (hg : DistinctIds g) (n : RouteNode K) :
    (∃ e ∈ entries, e.node = n) ↔ n.Wanted g routes := by
  constructor
  · rintro ⟨e, he, rfl⟩
    refine ⟨h.ents.owner e he, h.ents.at_ e he, (h.ents.stop e he).2, ?_⟩
    exact ((mem_stopNodes g routes _).1 (h.ents.stop e he).1).1
  · rintro ⟨h1, h2, h3, h4⟩
    obtain ⟨e, he, e1, e2, e3⟩ := h.ents.all _ _ _ _ _ h1 h2
    refine ⟨e, he, ?_⟩
    have ho := h.ents.owner e he
    rw [e1, h1] at ho
    have hr : e.node.route = n.route := (Option.some.inj ho).symm
    have hat := h.ents.at_ e he
    rw [hr, e2, e3] at hat
    have hid : e.node.stop.city.node.id = n.stop.city.node.id := by
      have h2' := h2.1
      have := hat.1
      rw [h2'] at this
      exact (Option.some.inj this).symm
    have hst := h.ents.stop e he
    have hcity := CityNode.In.ext hg ((mem_stopNodes g routes _).1 hst.1).1 h4 hid
    have hmode : e.node.stop.mode = n.stop.mode := by rw [hst.2, hr, h3]
    obtain ⟨⟨a1, a2, a3, a4, a5, a6⟩, a7⟩ := e
    obtain ⟨b1, b2, b3, b4, b5, b6⟩ := n
    simp_all

theorem ExtSpec.mem_stop (h : ExtSpec g routes sPTP freq x entries) (hg : DistinctIds g) (s : StopNode K) :
    s ∈ stopsOf x.nodes ↔ s.Wanted g routes := by
  rw [h.nodes.mem_stops]
  constructor
  · rintro ⟨e, he, rfl⟩
    obtain ⟨h1, h2, h3, h4⟩ := (h.mem_node hg e.node).1 ⟨e, he, rfl⟩
    exact ⟨h4, e.node.route, List.mem_of_getElem? h1, h3.symm, _, _, h2⟩
  · rintro ⟨hc, r, hr, hm, d, i, hn⟩
    obtain ⟨k, hk⟩ := List.mem_iff_getElem?.1 hr
    have hw : (⟨k, r, d, i, s⟩ : RouteNode K).Wanted g routes := ⟨hk, hn, hm.symm, hc⟩
    obtain ⟨e, he, hen⟩ := (h.mem_node hg _).2 hw
    exact ⟨e, he, by rw [hen]⟩

theorem ExtSpec.mem_edges (h : ExtSpec g routes sPTP freq x entries) (e : EEdge K) : e ∈ x.edges ↔
    (∃ s ∈ stopsOf x.nodes, e = ⟨.city s.city, .stop s, s.mode.tat / 60, none, .access⟩ ∨
      e = ⟨.stop s, .city s.city, s.mode.tat / 60, none, .access⟩) ∨
    (∃ n ∈ entries, n.node.CanBoard ∧ e = ⟨.stop n.node.stop, .route n.node, 0,
      some (freq.getD n.node.route.id 0 / (n.node.route.mode.d : K)), .boarding⟩) ∨
    (∃ n ∈ entries, n.node.CanAlight ∧ e = ⟨.route n.node, .stop n.node.stop, sPTP / 60, none, .alighting⟩) ∨
    (∃ n ∈ entries, ∃ p, n.prev = some p ∧ e = ⟨.route p, .route n.node,
      legDistance (x.nodes.map fun p => p.1.node) p n.node / n.node.stop.mode.v, none, .route⟩) := by
  obtain ⟨b, a, r, he, hb, ha, hr⟩ := h.edges
  rw [he]
  unfold boardingEdges at hb
  unfold alightingEdges at ha
  unfold routeEdges at hr
  rw [py_bind_eq_ok] at hb ha hr
  obtain ⟨b', hb', hb⟩ := hb
  obtain ⟨a', ha', ha⟩ := ha
  obtain ⟨r', hr', hr⟩ := hr
  cases hb; cases ha; cases hr
  have ok_of : ∀ {α β : Type} {f : α → Py β} {l : List α} {r : List β}, l.mapM f = .ok r → ∀ a ∈ l, ∃ b, f a = .ok b := by
    intro α β f l r h a ha
    rw [mapM_forall₂] at h
    induction h with
    | nil => simp at ha
    | cons h1 _ ih =>
      rcases List.mem_cons.1 ha with rfl | ha
      exacts [⟨_, h1⟩, ih ha]
  rw [List.mem_append, List.mem_append, List.mem_append, mem_accessEdges _ h.nodes, mem_flatten_mapM hb',
    mem_flatten_mapM ha', mem_flatten_mapM hr', or_assoc, or_assoc]
  refine or_congr_right (or_congr ?_ (or_congr ?_ ?_))
  · constructor
    · rintro ⟨n, hn, l, hl, h'⟩
      exact ⟨n, (h.nodes.mem_entries n).1 hn, (boardingStep_spec hl e).1 h'⟩
    · rintro ⟨n, hn, h'⟩
      have hn' := (h.nodes.mem_entries n).2 hn
      obtain ⟨l, hl⟩ := ok_of hb' n hn'
      exact ⟨n, hn', l, hl, (boardingStep_spec hl e).2 h'⟩
  · constructor
    · rintro ⟨n, hn, l, hl, h'⟩
      exact ⟨n, (h.nodes.mem_entries n).1 hn, (alightingStep_spec hl e).1 h'⟩
    · rintro ⟨n, hn, h'⟩
      have hn' := (h.nodes.mem_entries n).2 hn
      obtain ⟨l, hl⟩ := ok_of ha' n hn'
      exact ⟨n, hn', l, hl, (alightingStep_spec hl e).2 h'⟩
  · constructor
    · rintro ⟨n, hn, l, hl, h'⟩
      exact ⟨n, (h.nodes.mem_entries n).1 hn, (routeStep_spec hl e).1 h'⟩
    · rintro ⟨n, hn, h'⟩
      have hn' := (h.nodes.mem_entries n).2 hn
      obtain ⟨l, hl⟩ := ok_of hr' n hn'
      exact ⟨n, hn', l, hl, (routeStep_spec hl e).2 h'⟩

/-! ### no edge is repeated -/

theorem nodup_flatten_steps {f : RouteEntry K → Py (List (EEdge K))} (side : ENode K × ENode K → ENode K)
    (hf : ∀ e l, f e = .ok l → l.length ≤ 1 ∧ ∀ x ∈ l, side (x.i, x.j) = .route e.node)
    {l : List (RouteEntry K)} {r : List (List (EEdge K))} (hn : (l.map RouteEntry.node).Nodup) (h : l.mapM f = .ok r) :
    (r.flatten.map fun e => (e.i, e.j)).Nodup := by
  induction l generalizing r with
  | nil => rw [mapM_nil] at h; cases h; simp
  | cons a la ih =>
    rw [mapM_cons] at h
    simp only [py_bind_eq_ok] at h
    obtain ⟨b, h1, lb, h2, h⟩ := h
    cases h
    rw [List.map_cons, List.nodup_cons] at hn
    rw [List.flatten_cons, List.map_append, List.nodup_append]
    refine ⟨?_, ih hn.2 h2, ?_⟩
    · have hlen := (hf a b h1).1
      rcases b with _ | ⟨x, _ | ⟨y, t⟩⟩
      · simp
      · simp
      · simp at hlen
    · intro p hp q hq hpq
      obtain ⟨x, hx, rfl⟩ := List.mem_map.1 hp
      obtain ⟨y, hy, rfl⟩ := List.mem_map.1 hq
      have h3 := (hf a b h1).2 x hx
      rw [hpq] at h3
      obtain ⟨a', ha', bs, hbs, hy'⟩ := (mem_flatten_mapM h2 y).1 hy
      rw [(hf a' bs hbs).2 y hy'] at h3
      injection h3 with h3
      exact hn.1 (List.mem_map.2 ⟨a', ha', h3⟩)

theorem accessEdges_nodup {nodes : ENodes K} {entries : List (RouteEntry K)} (h : ENodesSpec entries nodes) :
    ((accessEdges nodes).map fun e => (e.i, e.j)).Nodup := by
  have h1 : accessEdges nodes = (stopsOf nodes).flatMap fun s => accessPair s.city s := by
    unfold accessEdges stopsOf
    rw [List.flatMap_assoc]
    refine List.flatMap_congr fun p hp => ?_
    refine List.flatMap_congr fun s hs => ?_
    obtain ⟨q, hq, rfl⟩ := List.mem_map.1 hs
    rw [((h.city p hp).2 q hq).1]
  rw [h1, List.map_flatMap, List.nodup_flatMap]
  refine ⟨fun s _ => by simp [accessPair], ?_⟩
  refine h.nodup_stops.imp ?_
  intro s s' hss p hp hp'
  simp only [accessPair, List.map_cons, List.map_nil, List.mem_cons, List.not_mem_nil, or_false] at hp hp'
  rcases hp with rfl | rfl <;> rcases hp' with hp' | hp' <;> simp at hp' <;> exact hss (by simp [hp'])

/-- `x.edges` has no two edges with the same ends -/
theorem ExtSpec.edges_nodup (h : ExtSpec g routes sPTP freq x entries) : (x.edges.map fun e => (e.i, e.j)).Nodup := by
  have hn : ((entriesOf x.nodes).map RouteEntry.node).Nodup :=
    (h.nodes.perm.map RouteEntry.node).nodup_iff.2 h.ents.nodup
  obtain ⟨b, a, r, he, hb, ha, hr⟩ := h.edges
  unfold boardingEdges at hb
  unfold alightingEdges at ha
  unfold routeEdges at hr
  rw [py_bind_eq_ok] at hb ha hr
  obtain ⟨b', hb', hb⟩ := hb
  obtain ⟨a', ha', ha⟩ := ha
  obtain ⟨r', hr', hr⟩ := hr
  cases hb; cases ha; cases hr
  have nb : (b'.flatten.map fun e => (e.i, e.j)).Nodup := by
    refine nodup_flatten_steps (fun p => p.2) ?_ hn hb'
    · intro e l hl
      constructor
      · unfold boardingStep at hl
        split at hl
        · simp only [py_bind_eq_ok] at hl; obtain ⟨_, _, hl⟩ := hl; cases hl; simp
        · split at hl
          · cases hl
          · split at hl
            · simp only [py_bind_eq_ok] at hl; obtain ⟨_, _, hl⟩ := hl; cases hl; simp
            · cases hl; simp
      · intro x hx
        rw [((boardingStep_spec hl x).1 hx).2]
  have na : (a'.flatten.map fun e => (e.i, e.j)).Nodup := by
    refine nodup_flatten_steps (fun p => p.1) ?_ hn ha'
    · intro e l hl
      constructor
      · unfold alightingStep at hl
        split at hl
        · cases hl; simp
        · split at hl
          · cases hl
          · split at hl
            · cases hl; simp
            · cases hl; simp
      · intro x hx
        rw [((alightingStep_spec hl x).1 hx).2]
  have nr : (r'.flatten.map fun e => (e.i, e.j)).Nodup := by
    refine nodup_flatten_steps (fun p => p.2) ?_ hn hr'
    · intro e l hl
      constructor
      · unfold routeStep at hl
        split at hl
        · cases hl; simp
        · simp only [py_bind_eq_ok] at hl; obtain ⟨_, _, hl⟩ := hl; cases hl; simp
      · intro x hx
        obtain ⟨p, _, hx⟩ := (routeStep_spec hl x).1 hx
        rw [hx]
  have ma : ∀ y ∈ (accessEdges x.nodes), ∃ c s, (y.i, y.j) = (ENode.city c, ENode.stop s) ∨ (y.i, y.j) = (ENode.stop s, ENode.city c) := by
    intro y hy
    obtain ⟨s, _, hs | hs⟩ := (mem_accessEdges x.nodes h.nodes y).1 hy
    · exact ⟨s.city, s, Or.inl (by rw [hs])⟩
    · exact ⟨s.city, s, Or.inr (by rw [hs])⟩
  have mb : ∀ y ∈ b'.flatten, ∃ s n, (y.i, y.j) = (ENode.stop s, ENode.route n) := by
    intro y hy
    obtain ⟨e, _, l, hl, hy⟩ := (mem_flatten_mapM hb' y).1 hy
    exact ⟨_, _, by rw [((boardingStep_spec hl y).1 hy).2]⟩
  have mal : ∀ y ∈ a'.flatten, ∃ s n, (y.i, y.j) = (ENode.route n, ENode.stop s) := by
    intro y hy
    obtain ⟨e, _, l, hl, hy⟩ := (mem_flatten_mapM ha' y).1 hy
    exact ⟨_, _, by rw [((alightingStep_spec hl y).1 hy).2]⟩
  have mr : ∀ y ∈ r'.flatten, ∃ n n', (y.i, y.j) = (ENode.route n, ENode.route n') := by
    intro y hy
    obtain ⟨e, _, l, hl, hy⟩ := (mem_flatten_mapM hr' y).1 hy
    obtain ⟨p, _, hy⟩ := (routeStep_spec hl y).1 hy
    exact ⟨_, _, by rw [hy]⟩
  rw [he, List.map_append, List.map_append, List.map_append, List.nodup_append, List.nodup_append, List.nodup_append]
  refine ⟨⟨⟨accessEdges_nodup h.nodes, nb, ?_⟩, na, ?_⟩, nr, ?_⟩
  · intro p hp q hq hpq
    obtain ⟨y, hy, rfl⟩ := List.mem_map.1 hp
    obtain ⟨z, hz, rfl⟩ := List.mem_map.1 hq
    obtain ⟨c, s, h1⟩ := ma y hy
    obtain ⟨s', n', h2⟩ := mb z hz
    rw [hpq, h2] at h1
    simp at h1
  · intro p hp q hq hpq
    obtain ⟨z, hz, rfl⟩ := List.mem_map.1 hq
    obtain ⟨s', n', h2⟩ := mal z hz
    rcases List.mem_append.1 hp with hp | hp
    · obtain ⟨y, hy, rfl⟩ := List.mem_map.1 hp
      obtain ⟨c, s, h1⟩ := ma y hy
      rw [hpq, h2] at h1; simp at h1
    · obtain ⟨y, hy, rfl⟩ := List.mem_map.1 hp
      obtain ⟨c, s, h1⟩ := mb y hy
      rw [hpq, h2] at h1; simp at h1
  · intro p hp q hq hpq
    obtain ⟨z, hz, rfl⟩ := List.mem_map.1 hq
    obtain ⟨s', n', h2⟩ := mr z hz
    rcases List.mem_append.1 hp with hp | hp
    · rcases List.mem_append.1 hp with hp | hp
      · obtain ⟨y, hy, rfl⟩ := List.mem_map.1 hp
        obtain ⟨c, s, h1⟩ := ma y hy
        rw [hpq, h2] at h1; simp at h1
      · obtain ⟨y, hy, rfl⟩ := List.mem_map.1 hp
        obtain ⟨c, s, h1⟩ := mb y hy
        rw [hpq, h2] at h1; simp at h1
    · obtain ⟨y, hy, rfl⟩ := List.mem_map.1 hp
      obtain ⟨c, s, h1⟩ := mal y hy
      rw [hpq, h2] at h1; simp at h1

/-! ### the way between two stops -/

/-- scanning nodes that are neither of the two stops, before the previous stop -/
theorem legLoop_before (nodes : List (Node K)) (a b : Int) (final prev : K × K) (dist : K) (pre rest : List Int)
    (ha : a ∉ pre) (hb : b ∉ pre) :
    legLoop nodes a b final (pre ++ rest) false prev dist = legLoop nodes a b final rest false prev dist := by
  induction pre with
  | nil => rfl
  | cons c t ih =>
    simp only [List.mem_cons, not_or] at ha hb
    rw [List.cons_append, legLoop, if_neg (Ne.symm ha.1), if_neg (Ne.symm hb.1)]
    simpa using ih ha.2 hb.2

/-- the city nodes found for a list of ids -/
def foundNodes (nodes : List (Node K)) (l : List Int) : List (Node K) :=
  l.filterMap fun i => nodes.find? (fun n => decide (i = n.id))

theorem legLoop_between (nodes : List (Node K)) (a b : Int) (B : Node K) (A : Node K) (dist : K)
    (mid post : List Int) (ha : a ∉ mid) (hb : b ∉ mid) (hab : a ≠ b) :
    legLoop nodes a b (B.x, B.y) (mid ++ b :: post) true (A.x, A.y) dist =
      dist + travelled (A :: (foundNodes nodes mid ++ [B])) := by
  induction mid generalizing A dist with
  | nil =>
    rw [List.nil_append, legLoop, if_neg (Ne.symm hab), if_pos rfl]
    simp [foundNodes, travelled, pairs, segment, nodeDistance]
  | cons c t ih =>
    simp only [List.mem_cons, not_or] at ha hb
    rw [List.cons_append, legLoop, if_neg (Ne.symm ha.1), if_neg (Ne.symm hb.1), if_pos rfl]
    cases hf : nodes.find? (fun n => decide (c = n.id)) with
    | none =>
      simp only
      rw [ih A dist ha.2 hb.2]
      simp [foundNodes, hf]
    | some n =>
      simp only
      rw [ih n _ ha.2 hb.2]
      simp only [foundNodes, List.filterMap_cons, hf, List.cons_append, travelled, pairs, List.map_cons, List.sum_cons,
        segment, nodeDistance]
      rw [add_assoc]

/-- the distance the code computes when the sequence runs from the first stop to the second one -/
theorem legLoop_inOrder (nodes : List (Node K)) (A B : Node K) (pre mid post : List Int)
    (hn : (pre ++ A.id :: (mid ++ B.id :: post)).Nodup) :
    legLoop nodes A.id B.id (B.x, B.y) (pre ++ A.id :: (mid ++ B.id :: post)) false (A.x, A.y) 0 =
      travelled (A :: (foundNodes nodes mid ++ [B])) := by
  rw [List.nodup_append] at hn
  obtain ⟨_, h2, h3⟩ := hn
  rw [List.nodup_cons] at h2
  have hb := h2.2
  rw [List.nodup_append] at hb
  have ha_pre : A.id ∉ pre := fun h => h3 _ h _ List.mem_cons_self rfl
  have hb_pre : B.id ∉ pre := fun h => h3 _ h B.id (by simp) rfl
  have ha_mid : A.id ∉ mid := fun h => h2.1 (by simp [h])
  have hb_mid : B.id ∉ mid := fun h => hb.2.2 _ h _ List.mem_cons_self rfl
  have hab : A.id ≠ B.id := fun h => h2.1 (by simp [h])
  rw [legLoop_before _ _ _ _ _ _ _ _ ha_pre hb_pre, legLoop, if_pos rfl,
    legLoop_between _ _ _ _ _ _ _ _ ha_mid hb_mid hab, zero_add]

/-- a closing leg of a ring: the second stop comes first in the sequence -/
theorem legLoop_closing (nodes : List (Node K)) (A B : Node K) (rest : List Int) (hab : A.id ≠ B.id) :
    legLoop nodes A.id B.id (B.x, B.y) (B.id :: rest) false (A.x, A.y) 0 = nodeDistance A B := by
  rw [legLoop, if_neg (Ne.symm hab), if_pos rfl, zero_add]
  rfl

/-- consecutive elements of a subsequence -/
theorem sublist_split {α : Type} {s l : List α} (h : s.Sublist l) {i : Nat} {a b : α} (ha : s[i]? = some a)
    (hb : s[i + 1]? = some b) : ∃ pre mid post, l = pre ++ a :: (mid ++ b :: post) := by
  have h1 : [a, b].Sublist s := by
    have hd : s.drop i = a :: b :: s.drop (i + 2) := by
      obtain ⟨h1, e1⟩ := List.getElem?_eq_some_iff.1 ha
      obtain ⟨h2, e2⟩ := List.getElem?_eq_some_iff.1 hb
      rw [List.drop_eq_getElem_cons h1, List.drop_eq_getElem_cons h2, e1, e2]
    have : [a, b].Sublist (s.drop i) := by rw [hd]; simp
    exact this.trans (List.drop_sublist _ _)
  have h2 := h1.trans h
  obtain ⟨r₁, r₂, rfl, h3, h4⟩ := List.cons_sublist_iff.1 h2
  obtain ⟨p1, p2, rfl⟩ := List.append_of_mem h3
  rw [List.singleton_sublist] at h4
  obtain ⟨q1, q2, rfl⟩ := List.append_of_mem h4
  exact ⟨p1, p2 ++ q1, q2, by simp⟩

/-! ### acceptance -/

theorem mapM_total {α β : Type} {f : α → Py β} {l : List α} (h : ∀ a ∈ l, ∃ b, f a = .ok b) : ∃ r, l.mapM f = .ok r := by
  induction l with
  | nil => exact ⟨[], rfl⟩
  | cons a t ih =>
    obtain ⟨b, hb⟩ := h a List.mem_cons_self
    obtain ⟨bs, hbs⟩ := ih (fun a ha => h a (List.mem_cons_of_mem _ ha))
    exact ⟨b :: bs, by rw [mapM_cons, hb, py_ok_bind, hbs, py_ok_bind]⟩

omit [Field K] [PyMath K] in
theorem keptStops_nodeAt {r : Route K} {d : Dir} {p : Int × Nat} (hp : p ∈ keptStops r d) : r.NodeAt d p.2 p.1 := by
  obtain ⟨k, hk⟩ := List.mem_iff_getElem?.1 hp
  rw [keptStops_get] at hk
  cases hs : (r.stopsOf d)[k + firstKept r]? with
  | none => simp [hs] at hk
  | some id =>
    simp only [hs, Option.map_some, Option.some.injEq] at hk
    subst hk
    exact ⟨hs, fun hc => by simp [firstKept, hc]⟩

omit [Field K] [PyMath K] in
theorem directionNodes_ok {g : Graph K} {routes : List (Route K)} {r : Route K} (hr : r ∈ routes) (k : Nat) (d : Dir)
    (hs : ∀ d i id, r.NodeAt d i id → ∃ c ∈ g.nodes, c.id = id) :
    ∃ l, directionNodes (buildStopNodes (buildTreeGraph routes (buildCityNodes g))) k r d = .ok l := by
  unfold directionNodes
  obtain ⟨ns, hns⟩ := mapM_total (f := mkRouteNode (buildStopNodes (buildTreeGraph routes (buildCityNodes g))) k r d)
      (l := keptStops r d) (by
    intro p hp
    have hn := keptStops_nodeAt hp
    obtain ⟨c, hc, hid⟩ := hs _ _ _ hn
    obtain ⟨j, hj⟩ := List.mem_iff_getElem?.1 hc
    have hmem : (⟨r.mode, ⟨j, c⟩⟩ : StopNode K) ∈ buildStopNodes (buildTreeGraph routes (buildCityNodes g)) := by
      rw [mem_stopNodes]
      exact ⟨hj, r, hr, rfl, d, by rw [hid]; exact List.mem_of_getElem? hn.1⟩
    unfold mkRouteNode
    cases hf : stopFor (buildStopNodes (buildTreeGraph routes (buildCityNodes g))) r.mode p.1 with
    | none =>
      unfold stopFor at hf
      rw [List.find?_eq_none] at hf
      exact absurd (hf _ hmem) (by simp [hid])
    | some s => exact ⟨_, rfl⟩)
  rw [hns]
  exact ⟨_, rfl⟩

theorem buildExtGraphWith_ok {g : Graph K} {routes : List (Route K)} (h : ∀ r ∈ routes, r.Fits g) (sPTP : K)
    (freq : Dict Str K) : ∃ x, buildExtGraphWith g routes sPTP freq = .ok x := by
  unfold buildExtGraphWith
  have h1 : ∃ entries, buildRouteNodes routes (buildStopNodes (buildTreeGraph routes (buildCityNodes g))) = .ok entries := by
    unfold buildRouteNodes
    obtain ⟨l, hl⟩ := mapM_total (f := routeNodesOf (buildStopNodes (buildTreeGraph routes (buildCityNodes g))))
        (l := routes.zipIdx) (by
      rintro ⟨r, k⟩ hp
      have hr : r ∈ routes := by
        rw [List.mk_mem_zipIdx_iff_getElem?] at hp
        exact List.mem_of_getElem? hp
      obtain ⟨a, ha⟩ := directionNodes_ok hr k .I (h r hr).stops
      obtain ⟨b, hb⟩ := directionNodes_ok hr k .R (h r hr).stops
      exact ⟨a ++ b, by unfold routeNodesOf; simp only [ha, hb, py_ok_bind, py_pure]⟩)
    rw [hl]
    exact ⟨_, rfl⟩
  obtain ⟨entries, he⟩ := h1
  have hE := buildRouteNodes_spec he
  have hN := buildExtendedNodes_spec entries
  have hfit : ∀ e ∈ entriesOf (buildExtendedNodes entries), e.node.route.Fits g ∧ e.node.stop.mode = e.node.route.mode ∧
      (e.node.route.type ≠ .circular → e.node.route.nodesOf e.node.dir ≠ []) := by
    intro e he'
    rw [hN.mem_entries] at he'
    have hr := h _ (List.mem_of_getElem? (hE.owner e he'))
    exact ⟨hr, (hE.stop e he').2, fun hc => hr.nodes hc _ _ _ (hE.at_ e he')⟩
  have hd : ∀ e ∈ entriesOf (buildExtendedNodes entries), ∃ y, boardingEdge freq e.node = .ok y := by
    intro e he'
    refine ⟨⟨.stop e.node.stop, .route e.node, 0,
      some (freq.getD e.node.route.id 0 / (e.node.route.mode.d : K)), .boarding⟩, ?_⟩
    unfold boardingEdge
    rw [(pyDiv_eq_ok (a := freq.getD e.node.route.id 0)).2 ⟨(hfit e he').1.lines, rfl⟩]
    rfl
  obtain ⟨b, hb⟩ := mapM_total (f := boardingStep freq) (l := entriesOf (buildExtendedNodes entries)) (by
    intro e he'
    obtain ⟨y, hy⟩ := hd e he'
    unfold boardingStep
    split
    · exact ⟨[y], by rw [hy]; rfl⟩
    · rename_i hc
      cases hl : (e.node.route.nodesOf e.node.dir).getLast? with
      | none => exact absurd (List.getLast?_eq_none_iff.1 hl) ((hfit e he').2.2 hc)
      | some z =>
        simp only
        split
        · exact ⟨[y], by rw [hy]; rfl⟩
        · exact ⟨[], rfl⟩)
  obtain ⟨a, ha⟩ := mapM_total (f := alightingStep (sPTP / 60)) (l := entriesOf (buildExtendedNodes entries)) (by
    intro e he'
    unfold alightingStep
    split
    · exact ⟨_, rfl⟩
    · rename_i hc
      cases hl : (e.node.route.nodesOf e.node.dir).head? with
      | none => exact absurd (List.head?_eq_none_iff.1 hl) ((hfit e he').2.2 hc)
      | some z =>
        simp only
        split
        · exact ⟨_, rfl⟩
        · exact ⟨[], rfl⟩)
  obtain ⟨r, hr⟩ := mapM_total (f := routeStep ((buildExtendedNodes entries).map fun p => p.1.node))
      (l := entriesOf (buildExtendedNodes entries)) (by
    intro e he'
    unfold routeStep
    cases hp : e.prev with
    | none => exact ⟨[], rfl⟩
    | some p =>
      simp only
      have hv : e.node.stop.mode.v ≠ 0 := by rw [(hfit e he').2.1]; exact (hfit e he').1.speed
      rw [(pyDiv_eq_ok (a := legDistance ((buildExtendedNodes entries).map fun p => p.1.node) p e.node)).2 ⟨hv, rfl⟩]
      exact ⟨_, rfl⟩)
  simp only [he, py_ok_bind]
  unfold boardingEdges alightingEdges routeEdges
  rw [hb, ha, hr]
  exact ⟨_, rfl⟩

end Sidermit
