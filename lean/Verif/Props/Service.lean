import Verif.Props.Hyperpath
import Verif.Proofs.Transport

/-!
C65: a better service never makes a trip longer.
-/

set_option linter.unusedSectionVars false

namespace Sidermit

section Generic

variable {K : Type} [Field K] [LinearOrder K] [IsStrictOrderedRing K] [PyMath K] {g : Graph K} {routes : List (Route K)}
  {sPTP sPTP' : K} {freq freq' : Option (Dict Str K)} {x x' : ExtGraph K} {pas pas' : Passenger K}

/-- the nodes of the extended graph depend neither on the frequencies nor on the transfer penalty -/
theorem extSpec_both (h : buildExtGraph g routes sPTP freq = .ok x) (h' : buildExtGraph g routes sPTP' freq' = .ok x') :
    x'.nodes = x.nodes ∧ ∃ entries, ExtSpec g routes sPTP (frequencies routes freq) x entries ∧
      ExtSpec g routes sPTP' (frequencies routes freq') x' entries := by
  unfold buildExtGraph buildExtGraphWith at h h'
  simp only [py_bind_eq_ok, py_pure, Except.ok.injEq] at h h'
  obtain ⟨entries, he, b, hb, a, ha, r, hr, rfl⟩ := h
  obtain ⟨entries', he', b', hb', a', ha', r', hr', rfl⟩ := h'
  rw [he] at he'
  cases he'
  exact ⟨rfl, entries, ⟨buildRouteNodes_spec he, buildExtendedNodes_spec _, b, a, r, rfl, hb, ha, hr⟩,
    ⟨buildRouteNodes_spec he, buildExtendedNodes_spec _, b', a', r', rfl, hb', ha', hr'⟩⟩

/-- the second service is nowhere worse than the first: no line is less frequent, the transfer penalty is not larger, and
neither waiting nor access is felt longer, compared with the time in the vehicle -/
structure BetterService (routes : List (Route K)) (sPTP sPTP' : K) (freq freq' : Option (Dict Str K))
    (pas pas' : Passenger K) : Prop where
  freqs : ∀ r ∈ routes, (frequencies routes freq).getD r.id 0 ≤ (frequencies routes freq').getD r.id 0
  penalty : sPTP' ≤ sPTP
  wait : pas'.pw / pas'.pv ≤ pas.pw / pas.pv
  access : pas'.pa / pas'.pv ≤ pas.pa / pas.pv

theorem BetterService.noWorse (hb : BetterService routes sPTP sPTP' freq freq' pas pas')
    (ha : Admissible routes sPTP freq pas) (ha' : Admissible routes sPTP' freq' pas')
    (hx : buildExtGraph g routes sPTP freq = .ok x) (hx' : buildExtGraph g routes sPTP' freq' = .ok x')
    (o d : Option (CityNode K)) : NoWorse x.edges x'.edges pas pas' o d o d id id := by
  obtain ⟨hn, entries, h1, h2⟩ := extSpec_both hx hx'
  have hs := ha.searchable hx
  have hs' := ha'.searchable hx'
  have hacc : ∀ t : K, 0 ≤ t → t * pas'.pa / pas'.pv ≤ t * pas.pa / pas.pv := by
    intro t ht
    rw [mul_div_assoc, mul_div_assoc]
    exact mul_le_mul_of_nonneg_left hb.access ht
  refine ⟨fun c hc => ⟨c, hc, rfl⟩, fun s => rfl, ?_, ?_, ?_, ?_⟩
  · intro e he ht s hi
    obtain ⟨_, _, s', hi', hth⟩ := hs.board e he ht
    rw [hi] at hi'
    cases hi'
    unfold waitCost
    rw [mul_div_assoc, mul_div_assoc]
    exact ⟨mul_pos hth (div_pos ha'.pw ha'.pv), mul_le_mul_of_nonneg_left hb.wait hth.le⟩
  · intro e he ht hi hj
    have htime := hs.time e he
    rw [h1.mem_edges] at he
    rcases he with ⟨s, hs1, rfl | rfl⟩ | ⟨m, hm, hc, rfl⟩ | ⟨m, hm, hc, rfl⟩ | ⟨m, hm, p, hp, rfl⟩
    · exact ⟨_, (h2.mem_edges _).2 (Or.inl ⟨s, by rw [hn]; exact hs1, Or.inl rfl⟩), ht, rfl, rfl, hi, hj, hacc _ htime⟩
    · exact ⟨_, (h2.mem_edges _).2 (Or.inl ⟨s, by rw [hn]; exact hs1, Or.inr rfl⟩), ht, rfl, rfl, hi, hj, hacc _ htime⟩
    · exact absurd rfl ht
    · refine ⟨_, (h2.mem_edges _).2 (Or.inr (Or.inr (Or.inl ⟨m, hm, hc, rfl⟩))), ht, rfl, rfl, hi, hj, ?_⟩
      simp only [legTime]
      split_ifs
      · exact le_refl _
      · exact div_le_div_of_nonneg_right hb.penalty (by norm_num)
    · refine ⟨_, (h2.mem_edges _).2 (Or.inr (Or.inr (Or.inr ⟨m, hm, p, hp, rfl⟩))), ht, rfl, rfl, hi, hj, ?_⟩
      simp only [legTime, hn]
      exact le_refl _
  · intro e he ht
    have hcopy := he
    rw [h1.mem_edges] at he
    rcases he with ⟨s, hs1, rfl | rfl⟩ | ⟨m, hm, hc, rfl⟩ | ⟨m, hm, hc, rfl⟩ | ⟨m, hm, p, hp, rfl⟩
    · cases ht
    · cases ht
    · refine ⟨_, (h2.mem_edges _).2 (Or.inr (Or.inl ⟨m, hm, hc, rfl⟩)), rfl, rfl, rfl, ?_, le_refl _⟩
      have hr : m.node.route ∈ routes := List.mem_of_getElem? (h1.ents.owner m hm)
      exact div_le_div_of_nonneg_right (hb.freqs _ hr) (ha.modes _ hr).lines.le
    · cases ht
    · cases ht
  · intro e₁ he₁ _ e₂ he₂ _ hi hj
    exact List.inj_on_of_nodup_map hs.edges_nodup he₁ he₂ (Prod.ext hi hj)

/-- C65: a better service never raises a label: for the same city, routes, origin and destination, if no line is less
frequent, the transfer penalty is not larger and the weights of waiting and access against the time in the vehicle are not
larger, then the expected generalised time from every node is not larger. -/
theorem C65_better_service (ha : Admissible routes sPTP freq pas) (ha' : Admissible routes sPTP' freq' pas')
    (hx : buildExtGraph g routes sPTP freq = .ok x) (hx' : buildExtGraph g routes sPTP' freq' = .ok x')
    (hb : BetterService routes sPTP sPTP' freq freq' pas pas')
    {o d : Option (CityNode K)} {r r' : HResult K} (hr : buildHyperpath ⟨x.nodes, x.edges, pas, o, d⟩ = .ok r)
    (hr' : buildHyperpath ⟨x'.nodes, x'.edges, pas', o, d⟩ = .ok r') {n : ENode K} (hn : n ∈ allNodes x.nodes) :
    n ∈ allNodes x'.nodes ∧ r'.label n ≤ r.label n := by
  refine ⟨by rw [(extSpec_both hx hx').1]; exact hn, ?_⟩
  by_cases hfin : r.label n = ⊤
  · rw [hfin]; exact le_top
  obtain ⟨c, hc, hl⟩ := C38_attained ha hx hr hn hfin
  obtain ⟨c', hle, hs⟩ := (hb.noWorse ha ha' hx hx' o d).strategy hc
  refine (C39_optimal ha' hx' hr' hs).trans ?_
  rw [hl, WithTop.coe_le_coe]
  refine add_le_add hle ?_
  have hse := (ha.searchable hx)
  unfold accessTime
  cases n with
  | stop s =>
    simp only [id]
    split_ifs
    · rw [mul_div_assoc, mul_div_assoc]
      refine mul_le_mul_of_nonneg_left hb.access ?_
      obtain ⟨entries, hsp⟩ := extSpec hx
      have hs : s ∈ stopsOf x.nodes := by simpa using (mem_allNodes _).1 hn
      have := hse.time _ ((hsp.mem_edges _).2 (Or.inl ⟨s, hs, Or.inl rfl⟩))
      exact this
    · exact le_refl _
  | city _ => exact le_refl _
  | route _ => exact le_refl _

/-- C65: so a demand that is served is served by the better service too. -/
theorem C65_still_served (hg : DistinctIds g) (ha : Admissible routes sPTP freq pas) (ha' : Admissible routes sPTP' freq' pas')
    (hx : buildExtGraph g routes sPTP freq = .ok x) (hx' : buildExtGraph g routes sPTP' freq' = .ok x')
    (hb : BetterService routes sPTP sPTP' freq freq' pas pas') {od : Dict Int (Dict Int K)}
    (hv : networkValidator x.nodes x.edges pas od = .ok true) : networkValidator x'.nodes x'.edges pas' od = .ok true := by
  obtain ⟨h1, h2⟩ := (C42_validator ha hg hx od).1.1 hv
  have hn := (extSpec_both hx hx').1
  refine (C42_validator ha' hg hx' od).1.2 ⟨?_, by rw [hn]; exact h2⟩
  intro p hp q hq h0
  obtain ⟨co, a1, a2, cd, b1, b2, s, s1, s2, c, hc⟩ := h1 p hp q hq h0
  obtain ⟨c', _, hs⟩ := (hb.noWorse ha ha' hx hx' (some co) (some cd)).strategy hc
  exact ⟨co, by rw [hn]; exact a1, a2, cd, by rw [hn]; exact b1, b2, s, by rw [hn]; exact s1, s2, c', hs⟩

/-! ## C66: more lines -/

variable {routes' : List (Route K)}

/-- the route edges with their times -/
theorem mem_route_edges (hg : DistinctIds g) (h : buildExtGraph g routes sPTP freq = .ok x) (e : EEdge K) :
    e ∈ x.edges ∧ e.type = .route ↔ ∃ p n : RouteNode K, p.Wanted g routes ∧ n.Wanted g routes ∧ p.Precedes n ∧
      e = ⟨.route p, .route n, legDistance (x.nodes.map fun p => p.1.node) p n / n.stop.mode.v, none, .route⟩ := by
  obtain ⟨entries, hx⟩ := extSpec h
  have hw := hx.mem_node hg
  rw [hx.mem_edges]
  constructor
  · rintro ⟨he, ht⟩
    rcases he with ⟨s, hs, h'⟩ | ⟨n, _, _, rfl⟩ | ⟨n, _, _, rfl⟩ | ⟨n, hn, p, hp, rfl⟩
    · rcases h' with rfl | rfl <;> cases ht
    · cases ht
    · cases ht
    · have := (hx.ents.prev n hn p).1 hp
      exact ⟨p, n.node, (hw _).1 this.1, (hw _).1 ⟨n, hn, rfl⟩, this.2, rfl⟩
  · rintro ⟨p, n, hp, hn, hpn, rfl⟩
    obtain ⟨e, he, rfl⟩ := (hw n).2 hn
    exact ⟨Or.inr (Or.inr (Or.inr ⟨e, he, p, (hx.ents.prev e he p).2 ⟨(hw p).2 hp, hpn⟩, rfl⟩)), rfl⟩

open Classical in
/-- the nodes of the city that are found on the way -/
theorem find_served (hg : DistinctIds g) (h : buildExtGraph g routes sPTP freq = .ok x) (id : Int) :
    (x.nodes.map fun p => p.1.node).find? (fun n => decide (id = n.id)) =
      g.nodes.find? (fun n => decide (id = n.id ∧ Served g routes n)) := by
  have hkeys := (C34_stop_nodes hg h).2.2.2.1
  have hmem : ∀ m, m ∈ (x.nodes.map fun p => p.1.node) ↔ m ∈ g.nodes ∧ Served g routes m := by
    intro m
    rw [List.mem_map]
    constructor
    · rintro ⟨p, hp, rfl⟩
      obtain ⟨s, hs, hsc⟩ := (hkeys p.1).1 (List.mem_map.2 ⟨p, hp, rfl⟩)
      exact ⟨by rw [← hsc]; exact List.mem_of_getElem? hs.1, s, hs, by rw [hsc]⟩
    · rintro ⟨_, s, hs, rfl⟩
      obtain ⟨p, hp, hpc⟩ := List.mem_map.1 ((hkeys _).2 ⟨s, hs, rfl⟩)
      exact ⟨p, hp, by rw [hpc]⟩
  cases hf : g.nodes.find? (fun n => decide (id = n.id ∧ Served g routes n)) with
  | none =>
    rw [List.find?_eq_none] at hf ⊢
    intro m hm hid
    obtain ⟨h1, h2⟩ := (hmem m).1 hm
    exact hf m h1 (by simpa using ⟨by simpa using hid, h2⟩)
  | some m =>
    have h1 := List.mem_of_find?_eq_some hf
    have h2 := List.find?_some hf
    simp only [decide_eq_true_eq] at h2
    have hin := (hmem m).2 ⟨h1, h2.2⟩
    cases hf' : (x.nodes.map fun p => p.1.node).find? (fun n => decide (id = n.id)) with
    | none =>
      rw [List.find?_eq_none] at hf'
      exact absurd (hf' m hin) (by simp [h2.1])
    | some m' =>
      have h3 := ((hmem m').1 (List.mem_of_find?_eq_some hf')).1
      have h4 := List.find?_some hf'
      simp only [decide_eq_true_eq] at h4
      congr 1
      exact List.inj_on_of_nodup_map hg h3 h1 (h4.symm.trans h2.1)

/-- the length of a leg depends only on which nodes of the way are found -/
theorem legLoop_congr {l l' : List (Node K)} {a b : Int} {final : K × K} (s : List Int)
    (hs : ∀ id ∈ s, l.find? (fun n => decide (id = n.id)) = l'.find? (fun n => decide (id = n.id))) (count : Bool)
    (prev : K × K) (dist : K) : legLoop l a b final s count prev dist = legLoop l' a b final s count prev dist := by
  induction s generalizing count prev dist with
  | nil => rfl
  | cons id t ih =>
    replace ih := ih fun i hi => hs i (List.mem_cons_of_mem _ hi)
    rw [legLoop, legLoop, hs id List.mem_cons_self]
    split_ifs
    · exact ih _ _ _
    · rfl
    · cases l'.find? (fun n => decide (id = n.id)) with
      | none => exact ih _ _ _
      | some n => exact ih _ _ _
    · exact ih _ _ _

/-- the second network has all the lines of the first one, none of them less frequent -/
structure MoreLines (routes routes' : List (Route K)) (freq freq' : Option (Dict Str K)) : Prop where
  ids : (routes.map Route.id).Nodup
  lines : ∀ r ∈ routes, r ∈ routes'
  freqs : ∀ r ∈ routes, (frequencies routes freq).getD r.id 0 ≤ (frequencies routes' freq').getD r.id 0

/-- on the ways of the lines of the first network, the second one has no stops at nodes where no line stopped before -/
def NoNewStops (g : Graph K) (routes routes' : List (Route K)) : Prop :=
  ∀ r ∈ routes, ∀ d, ∀ m ∈ g.nodes, m.id ∈ r.nodesOf d → Served g routes' m → Served g routes m

/-- the route node in the other network -/
def renumber (routes' : List (Route K)) (n : RouteNode K) : RouteNode K := { n with ridx := routes'.idxOf n.route }

/-- the node in the other network -/
def renumberNode (routes' : List (Route K)) : ENode K → ENode K
  | .route n => .route (renumber routes' n)
  | n => n

theorem renumber_wanted (hsub : ∀ r ∈ routes, r ∈ routes') {n : RouteNode K} (hn : n.Wanted g routes) :
    (renumber routes' n).Wanted g routes' := by
  obtain ⟨h1, h2⟩ := hn
  refine ⟨?_, h2⟩
  have := hsub _ (List.mem_of_getElem? h1)
  exact List.getElem?_idxOf this

theorem stop_wanted (hsub : ∀ r ∈ routes, r ∈ routes') {s : StopNode K} (hs : s.Wanted g routes) : s.Wanted g routes' := by
  obtain ⟨h1, r, hr, h2⟩ := hs
  exact ⟨h1, r, hsub r hr, h2⟩

theorem renumber_inj (hids : (routes.map Route.id).Nodup) {n m : RouteNode K} (hn : n.Wanted g routes)
    (hm : m.Wanted g routes) (h : renumber routes' n = renumber routes' m) : n = m := by
  unfold renumber at h
  simp only [RouteNode.mk.injEq] at h
  obtain ⟨_, h2, h3, h4, h5⟩ := h
  have hidx : n.ridx = m.ridx := by
    have hn1 := hn.1
    have hm1 := hm.1
    rw [← h2] at hm1
    have hnd : routes.Nodup := List.Nodup.of_map _ hids
    obtain ⟨k1, e1⟩ := List.getElem?_eq_some_iff.1 hn1
    obtain ⟨k2, e2⟩ := List.getElem?_eq_some_iff.1 hm1
    exact (List.Nodup.getElem_inj_iff hnd).1 (e1.trans e2.symm)
  cases n; cases m
  simp_all

theorem renumber_city (routes' : List (Route K)) (n : ENode K) (o : Option (CityNode K)) :
    some (renumberNode routes' n) = o.map ENode.city ↔ some n = o.map ENode.city := by
  cases n <;> cases o <;> simp [renumberNode]

theorem MoreLines.noWorse (hm : MoreLines routes routes' freq freq') (hway : NoNewStops g routes routes') (hg : DistinctIds g)
    (ha : Admissible routes sPTP freq pas) (hx : buildExtGraph g routes sPTP freq = .ok x)
    (hx' : buildExtGraph g routes' sPTP freq' = .ok x') (o d : Option (CityNode K)) :
    NoWorse x.edges x'.edges pas pas o d o d (renumberNode routes') id := by
  have hs := ha.searchable hx
  have hleg : ∀ p n : RouteNode K, n.Wanted g routes → legDistance (x'.nodes.map fun p => p.1.node) (renumber routes' p)
      (renumber routes' n) = legDistance (x.nodes.map fun p => p.1.node) p n := by
    intro p n hn
    unfold legDistance
    have hr : n.route ∈ routes := List.mem_of_getElem? hn.1
    refine legLoop_congr _ ?_ _ _ _
    intro id hid
    rw [find_served hg hx', find_served hg hx]
    refine List.find?_congr ?_ 
    intro m hmg
    rw [decide_eq_decide]
    constructor
    · rintro ⟨h1, h2⟩
      exact ⟨h1, hway _ hr n.dir m hmg (by rw [← h1]; exact hid) h2⟩
    · rintro ⟨h1, s, h2, h3⟩
      exact ⟨h1, s, stop_wanted hm.lines h2, h3⟩
  refine ⟨fun c hc => ⟨c, hc, rfl⟩, fun s => rfl, ?_, ?_, ?_, ?_⟩
  · intro e he ht s hi
    obtain ⟨_, _, s', hi', hth⟩ := hs.board e he ht
    rw [hi] at hi'
    cases hi'
    exact ⟨div_pos (mul_pos hth ha.pw) ha.pv, le_refl _⟩
  · intro e he ht hi hj
    have hi' := (renumber_city routes' e.i o).not.2 hi
    have hj' := (renumber_city routes' e.j o).not.2 hj
    cases hty : e.type with
    | boarding => exact absurd hty ht
    | access =>
      obtain ⟨s, hsw, rfl | rfl⟩ := ((C35_edges hg hx e).1).1 ⟨he, hty⟩
      · exact ⟨_, (((C35_edges hg hx' _).1).2 ⟨s, stop_wanted hm.lines hsw, Or.inl rfl⟩).1, ht, rfl, rfl, hi', hj', le_refl _⟩
      · exact ⟨_, (((C35_edges hg hx' _).1).2 ⟨s, stop_wanted hm.lines hsw, Or.inr rfl⟩).1, ht, rfl, rfl, hi', hj', le_refl _⟩
    | alighting =>
      obtain ⟨n, hn, hc, rfl⟩ := ((C35_edges hg hx e).2.2).1 ⟨he, hty⟩
      exact ⟨_, (((C35_edges hg hx' _).2.2).2 ⟨_, renumber_wanted hm.lines hn, hc, rfl⟩).1, ht, rfl, rfl, hi', hj', le_refl _⟩
    | route =>
      obtain ⟨p, n, hp, hn, hpn, rfl⟩ := (mem_route_edges hg hx e).1 ⟨he, hty⟩
      have hpr : p.route = n.route := by
        have h1 := hp.1
        rw [hpn.1, hn.1] at h1
        exact (Option.some.inj h1).symm
      refine ⟨_, ((mem_route_edges hg hx' _).2 ⟨_, _, renumber_wanted hm.lines hp, renumber_wanted hm.lines hn,
        ⟨by simp only [renumber, hpr], hpn.2.1, hpn.2.2⟩, rfl⟩).1, ht, rfl, rfl, hi', hj', ?_⟩
      simp only [legTime]
      rw [hleg p n hn]
      exact le_refl _
  · intro e he ht
    obtain ⟨n, hn, hc, rfl⟩ := ((C35_edges hg hx e).2.1).1 ⟨he, ht⟩
    refine ⟨_, (((C35_edges hg hx' _).2.1).2 ⟨_, renumber_wanted hm.lines hn, hc, rfl⟩).1, rfl, rfl, rfl, ?_, le_refl _⟩
    have hr : n.route ∈ routes := List.mem_of_getElem? hn.1
    exact div_le_div_of_nonneg_right (hm.freqs _ hr) (ha.modes _ hr).lines.le
  · intro e₁ he₁ ht₁ e₂ he₂ ht₂ hi hj
    obtain ⟨n, hn, _, rfl⟩ := ((C35_edges hg hx e₁).2.1).1 ⟨he₁, ht₁⟩
    obtain ⟨m, hmm, _, rfl⟩ := ((C35_edges hg hx e₂).2.1).1 ⟨he₂, ht₂⟩
    simp only [renumberNode, ENode.route.injEq] at hj
    rw [renumber_inj hm.ids hn hmm hj]

theorem MoreLines.nodes (hm : MoreLines routes routes' freq freq') (hg : DistinctIds g)
    (hx : buildExtGraph g routes sPTP freq = .ok x) (hx' : buildExtGraph g routes' sPTP freq' = .ok x') :
    (∀ s ∈ stopsOf x.nodes, s ∈ stopsOf x'.nodes) ∧ (∀ c ∈ Dict.keys x.nodes, c ∈ Dict.keys x'.nodes) := by
  obtain ⟨_, h1, _, h2, _⟩ := C34_stop_nodes hg hx
  obtain ⟨_, h1', _, h2', _⟩ := C34_stop_nodes hg hx'
  refine ⟨fun s hs => (h1' s).2 (stop_wanted hm.lines ((h1 s).1 hs)), fun c hc => ?_⟩
  obtain ⟨s, hs, hc⟩ := (h2 c).1 hc
  exact (h2' c).2 ⟨s, stop_wanted hm.lines hs, hc⟩

/-- C66: a line more never raises the label of a node or stop of the city, provided that it brings no stop to a node on the
way of the other lines where no line stopped before.  Without that proviso the claim fails, see `C66_line_more_hurts`. -/
theorem C66_more_lines_partial (hg : DistinctIds g) (ha : Admissible routes sPTP freq pas)
    (ha' : Admissible routes' sPTP freq' pas) (hx : buildExtGraph g routes sPTP freq = .ok x)
    (hx' : buildExtGraph g routes' sPTP freq' = .ok x') (hm : MoreLines routes routes' freq freq')
    (hway : NoNewStops g routes routes') {o d : Option (CityNode K)} {r r' : HResult K} (hr : buildHyperpath ⟨x.nodes, x.edges, pas, o, d⟩ = .ok r)
    (hr' : buildHyperpath ⟨x'.nodes, x'.edges, pas, o, d⟩ = .ok r') :
    (∀ s ∈ stopsOf x.nodes, s ∈ stopsOf x'.nodes ∧ r'.label (.stop s) ≤ r.label (.stop s)) ∧
    (∀ c ∈ Dict.keys x.nodes, c ∈ Dict.keys x'.nodes ∧ r'.label (.city c) ≤ r.label (.city c)) := by
  have key : ∀ n ∈ allNodes x.nodes, renumberNode routes' n = n → r'.label n ≤ r.label n := by
    intro n hn hsame
    by_cases hfin : r.label n = ⊤
    · rw [hfin]; exact le_top
    obtain ⟨c, hc, hl⟩ := C38_attained ha hx hr hn hfin
    obtain ⟨c', hle, hs⟩ := (hm.noWorse hway hg ha hx hx' o d).strategy hc
    rw [hsame] at hs
    refine (C39_optimal ha' hx' hr' hs).trans ?_
    rw [hl, WithTop.coe_le_coe]
    exact add_le_add_left hle _
  obtain ⟨h1, h2⟩ := hm.nodes hg hx hx'
  exact ⟨fun s hs => ⟨h1 s hs, key _ ((mem_allNodes _).2 (Or.inr (Or.inl ⟨s, hs, rfl⟩))) rfl⟩, fun c hc => ⟨h2 c hc, key _ ((mem_allNodes _).2 (Or.inl ⟨c, hc, rfl⟩)) rfl⟩⟩

theorem MoreLines.hasAll (hm : MoreLines routes routes' freq freq') (hg : DistinctIds g)
    (ha : Admissible routes sPTP freq pas) (hx : buildExtGraph g routes sPTP freq = .ok x)
    (hx' : buildExtGraph g routes' sPTP freq' = .ok x') (o d : Option (CityNode K)) :
    HasAll x.edges x'.edges o d o d (renumberNode routes') id := by
  refine ⟨fun c hc => ⟨c, hc, rfl⟩, fun s => rfl, ?_, ?_⟩
  · intro e he ht hi hj
    have hi' := (renumber_city routes' e.i o).not.2 hi
    have hj' := (renumber_city routes' e.j o).not.2 hj
    cases hty : e.type with
    | boarding => exact absurd hty ht
    | access =>
      obtain ⟨s, hsw, rfl | rfl⟩ := ((C35_edges hg hx e).1).1 ⟨he, hty⟩
      · exact ⟨_, (((C35_edges hg hx' _).1).2 ⟨s, stop_wanted hm.lines hsw, Or.inl rfl⟩).1, ht, rfl, rfl, hi', hj'⟩
      · exact ⟨_, (((C35_edges hg hx' _).1).2 ⟨s, stop_wanted hm.lines hsw, Or.inr rfl⟩).1, ht, rfl, rfl, hi', hj'⟩
    | alighting =>
      obtain ⟨n, hn, hc, rfl⟩ := ((C35_edges hg hx e).2.2).1 ⟨he, hty⟩
      exact ⟨_, (((C35_edges hg hx' _).2.2).2 ⟨_, renumber_wanted hm.lines hn, hc, rfl⟩).1, ht, rfl, rfl, hi', hj'⟩
    | route =>
      obtain ⟨p, n, hp, hn, hpn, rfl⟩ := (mem_route_edges hg hx e).1 ⟨he, hty⟩
      have hpr : p.route = n.route := by
        have h1 := hp.1
        rw [hpn.1, hn.1] at h1
        exact (Option.some.inj h1).symm
      exact ⟨_, ((mem_route_edges hg hx' _).2 ⟨_, _, renumber_wanted hm.lines hp, renumber_wanted hm.lines hn,
        ⟨by simp only [renumber, hpr], hpn.2.1, hpn.2.2⟩, rfl⟩).1, ht, rfl, rfl, hi', hj'⟩
  · intro e he ht hf
    obtain ⟨n, hn, hc, rfl⟩ := ((C35_edges hg hx e).2.1).1 ⟨he, ht⟩
    refine ⟨_, (((C35_edges hg hx' _).2.1).2 ⟨_, renumber_wanted hm.lines hn, hc, rfl⟩).1, rfl, rfl, rfl, ?_⟩
    have hr : n.route ∈ routes := List.mem_of_getElem? hn.1
    exact lt_of_lt_of_le hf (div_le_div_of_nonneg_right (hm.freqs _ hr) (ha.modes _ hr).lines.le)

/-- C66: a demand that is served stays served when lines are added (here new stops do not matter), as long as the modes
still suit the assignment. -/
theorem C66_still_served (hg : DistinctIds g) (ha : Admissible routes sPTP freq pas) (ha' : Admissible routes' sPTP freq' pas)
    (hx : buildExtGraph g routes sPTP freq = .ok x) (hx' : buildExtGraph g routes' sPTP freq' = .ok x')
    (hm : MoreLines routes routes' freq freq') {od : Dict Int (Dict Int K)}
    (hv : networkValidator x.nodes x.edges pas od = .ok true) :
    networkValidator x'.nodes x'.edges pas od = .ok true ↔ ModesAssignable (stopsOf x'.nodes) := by
  obtain ⟨h1, _⟩ := (C42_validator ha hg hx od).1.1 hv
  obtain ⟨n1, n2⟩ := hm.nodes hg hx hx'
  refine ⟨fun h => ((C42_validator ha' hg hx' od).1.1 h).2, fun h2 => (C42_validator ha' hg hx' od).1.2 ⟨?_, h2⟩⟩
  intro p hp q hq h0
  obtain ⟨co, a1, a2, cd, b1, b2, s, s1, s2, c, hc⟩ := h1 p hp q hq h0
  obtain ⟨c', hs⟩ := (hm.hasAll hg ha hx hx' (some co) (some cd)).strategy hc
  exact ⟨co, n2 _ a1, a2, cd, n2 _ b1, b2, s, n1 _ s1, s2, c', hs⟩

/-- the lines in another order -/
theorem moreLines_of_perm (hids : (routes.map Route.id).Nodup) (hp : routes.Perm routes') (freq : Option (Dict Str K)) :
    MoreLines routes routes' freq freq := by
  refine ⟨hids, fun r hr => hp.subset hr, fun r hr => ?_⟩
  cases freq with
  | some f => exact le_refl _
  | none =>
    have hids' : (routes'.map Route.id).Nodup := (hp.map _).nodup_iff.1 hids
    simp only [frequencies]
    rw [defaultFrequencies_getD hids hr, defaultFrequencies_getD hids' (hp.subset hr)]

theorem noNewStops_of_perm (hp : routes.Perm routes') : NoNewStops g routes routes' := by
  rintro r _ d m _ _ ⟨s, hs, rfl⟩
  exact ⟨s, stop_wanted (fun r hr => hp.symm.subset hr) hs, rfl⟩

/-- C66: the order of the lines does not matter: the labels of nodes and stops of the city are the same. -/
theorem C66_order_of_lines (hg : DistinctIds g) (hids : (routes.map Route.id).Nodup) (hp : routes.Perm routes')
    (ha : Admissible routes sPTP freq pas) (hx : buildExtGraph g routes sPTP freq = .ok x)
    (hx' : buildExtGraph g routes' sPTP freq = .ok x') {o d : Option (CityNode K)} {r r' : HResult K}
    (hr : buildHyperpath ⟨x.nodes, x.edges, pas, o, d⟩ = .ok r) (hr' : buildHyperpath ⟨x'.nodes, x'.edges, pas, o, d⟩ = .ok r') :
    (∀ s, s ∈ stopsOf x'.nodes ↔ s ∈ stopsOf x.nodes) ∧ (∀ c, c ∈ Dict.keys x'.nodes ↔ c ∈ Dict.keys x.nodes) ∧
    (∀ s ∈ stopsOf x.nodes, r'.label (.stop s) = r.label (.stop s)) ∧
    (∀ c ∈ Dict.keys x.nodes, r'.label (.city c) = r.label (.city c)) := by
  have hids' : (routes'.map Route.id).Nodup := (hp.map _).nodup_iff.1 hids
  have hm := moreLines_of_perm hids hp freq
  have hm' := moreLines_of_perm hids' hp.symm freq
  have ha' : Admissible routes' sPTP freq pas := by
    refine ⟨fun r hr => ha.modes r (hp.symm.subset hr), fun r hr => ?_, ha.penalty, ha.root, ha.pv, ha.pw, ha.pa⟩
    exact (ha.freqs r (hp.symm.subset hr)).trans (hm.freqs r (hp.symm.subset hr))
  obtain ⟨h1, h2⟩ := C66_more_lines_partial hg ha ha' hx hx' hm (noNewStops_of_perm hp) hr hr'
  obtain ⟨h1', h2'⟩ := C66_more_lines_partial hg ha' ha hx' hx hm' (noNewStops_of_perm hp.symm) hr' hr
  exact ⟨fun s => ⟨fun h => (h1' s h).1, fun h => (h1 s h).1⟩, fun c => ⟨fun h => (h2' c h).1, fun h => (h2 c h).1⟩,
    fun s hs => le_antisymm (h1 s hs).2 (h1' s (h1 s hs).1).2, fun c hc => le_antisymm (h2 c hc).2 (h2' c (h2 c hc).1).2⟩

end Generic

/-! ## examples -/

section Examples

attribute [local instance] ratMath ratText

/-- the labels at the stops of the origin -/
def serviceLabels (g : Graph ℚ) (routes : List (Route ℚ)) (sPTP : ℚ) (freq : Option (Dict Str ℚ)) (pas : Passenger ℚ)
    (o d : Int) : Option (List (Option ℚ)) := do
  let x ← (buildExtGraph g routes sPTP freq).toOption
  let r ← (buildHyperpath ⟨x.nodes, x.edges, pas, cityOf x.nodes o, cityOf x.nodes d⟩).toOption
  return (stopsAt x.nodes (cityOf x.nodes o)).map fun s => match r.label (.stop s) with | ⊤ => none | .some v => some v

/-- more frequencies: the metro runs twice an hour, the others as before -/
def demoFaster : Option (Dict Str ℚ) := some [("a".toList, 1), ("b".toList, 2), ("c".toList, 1)]

theorem demoFaster_better : BetterService demoRoutes 2 1 none demoFaster demoPassenger { demoPassenger with pw := 3 } :=
  ⟨by decide +kernel, by norm_num, by norm_num [demoPassenger], by norm_num [demoPassenger]⟩

theorem demoFaster_admissible : Admissible demoRoutes 1 demoFaster { demoPassenger with pw := 3 } :=
  ⟨demoAdmissible.modes, by decide +kernel, by norm_num, demoAdmissible.root, by norm_num [demoPassenger],
    by norm_num [demoPassenger], by norm_num [demoPassenger]⟩

/-- the hypotheses of C65 hold, and the labels do get smaller -/
example : serviceLabels (demoCity 3) demoRoutes 2 none demoPassenger 1 4 = some [some (419/150), some (69/25)] ∧
    serviceLabels (demoCity 3) demoRoutes 1 demoFaster { demoPassenger with pw := 3 } 1 4 =
      some [some (683/300), some (151/100)] := by decide +kernel

/-- a city where the ways of the witness have exact lengths: the subcentres at 3 km and the peripheries at 4 km -/
def cornerCity : Graph ℚ :=
  ((buildFromParameters (K := ℚ) 4 3 (1/3) 2 none none none none none).toOption).getD
    ⟨[], [], [], none, none, none, none, none, none, none, none, none⟩

/-- an express line over the CBD without stopping there -/
def cornerRoutes : List (Route ℚ) :=
  [⟨"a".toList, demoMode, [1, 2, 0, 4], [4, 0, 2, 1], [1, 4], [4, 1], .custom⟩]

/-- a line from the CBD to another subcentre, of no use for the trips of the first one -/
def cornerLine : Route ℚ := ⟨"b".toList, demoMode, [6, 0], [0, 6], [6, 0], [0, 6], .custom⟩

/-- lines of the same way, one of them stopping everywhere: here C66 applies -/
def localLines : List (Route ℚ) :=
  [⟨"a".toList, demoMode, [1, 2, 0], [0, 2, 1], [1, 2, 0], [0, 2, 1], .custom⟩,
   ⟨"b".toList, demoMode, [1, 2, 0], [0, 2, 1], [1, 0], [0, 1], .custom⟩]

/-- a line more -/
def localMore : List (Route ℚ) :=
  [⟨"c".toList, demoMode, [1, 2], [2, 1], [1, 2], [2, 1], .custom⟩] ++ localLines

example : MoreLines localLines localMore none none := ⟨by decide +kernel, by decide +kernel, by decide +kernel⟩

example : NoNewStops (demoCity 3) localLines localMore := by
  have hn : ∀ r ∈ localLines, ∀ d, ∀ id ∈ r.nodesOf d, id ∈ [(0 : Int), 1, 2] := by
    intro r hr d
    have : ∀ r ∈ localLines, (∀ id ∈ r.nodesOf .I, id ∈ [(0 : Int), 1, 2]) ∧ ∀ id ∈ r.nodesOf .R, id ∈ [(0 : Int), 1, 2] := by
      decide +kernel
    cases d
    · exact (this r hr).1
    · exact (this r hr).2
  intro r hr d m hm hid _
  have hid := hn r hr d m.id hid
  obtain ⟨k, hk⟩ := List.mem_iff_getElem?.1 hm
  refine ⟨⟨demoMode, ⟨k, m⟩⟩, ⟨hk, _, List.mem_cons_self, rfl, ?_⟩, rfl⟩
  simp only [List.mem_cons, List.not_mem_nil, or_false] at hid
  rcases hid with h | h | h
  · exact ⟨.I, 2, by simp [Route.stopsOf, h], by simp⟩
  · exact ⟨.I, 0, by simp [Route.stopsOf, h], by simp⟩
  · exact ⟨.I, 1, by simp [Route.stopsOf, h], by simp⟩

example : serviceLabels (demoCity 3) localLines 2 none demoPassenger 1 2 = some [some (63/50)] ∧
    serviceLabels (demoCity 3) localMore 2 none demoPassenger 1 2 = some [some (19/25)] ∧
    serviceLabels (demoCity 3) localMore.reverse 2 none demoPassenger 1 2 = some [some (19/25)] := by decide +kernel

/-- C66 fails for the code without the proviso: a line is added that shares no street with the trip, and the label of the
trip gets larger.  The reason is C36: nodes without stops are left out of the length of the way. -/
theorem C66_line_more_hurts :
    MoreLines cornerRoutes (cornerRoutes ++ [cornerLine]) none none ∧
    Admissible cornerRoutes 2 none demoPassenger ∧ Admissible (cornerRoutes ++ [cornerLine]) 2 none demoPassenger ∧
    serviceLabels cornerCity cornerRoutes 2 none demoPassenger 1 4 = some [some (63/50)] ∧
    serviceLabels cornerCity (cornerRoutes ++ [cornerLine]) 2 none demoPassenger 1 4 = some [some (34/25)] := by
  refine ⟨⟨by decide +kernel, by decide +kernel, by decide +kernel⟩, ?_, ?_, by decide +kernel, by decide +kernel⟩
  all_goals
    refine ⟨?_, by decide +kernel, by norm_num, demoAdmissible.root, demoAdmissible.pv, demoAdmissible.pw, demoAdmissible.pa⟩
    intro r hr
    have hm : r.mode = demoMode := by revert r; decide +kernel
    rw [hm]
    exact ⟨by decide +kernel, by decide +kernel, by decide +kernel, by decide +kernel⟩

end Examples

end Sidermit
