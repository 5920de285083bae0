import Verif.Proofs.Clock
import Verif.Props.Inbound

/-!
C91: the clock of the passengers and the clock of the vehicles.
-/

set_option linter.unusedSectionVars false

namespace Sidermit

section Generic

variable {K : Type} [Field K] [LinearOrder K] [IsStrictOrderedRing K] [PyMath K] {g : Graph K} {n : Nat}
  {routes : List (Route K)} {sPTP : K} {freq : Option (Dict Str K)} {x : ExtGraph K}

/-- C91, the clock of the vehicles: on any way through nodes of the city, only the parts on streets take time. -/
theorem C91_vehicle_time (hs : CityShape g n) (hd : DistinctIds g) (hids : (routes.map Route.id).Nodup)
    (hv : ∀ r ∈ routes, r.mode.v ≠ 0) {t : Dict Str K} (ht : linesTravelTime routes g.edgesDistance = .ok t) {r : Route K}
    (hr : r ∈ routes) {A : Dir → List (Node K)} (hA : ∀ d, ∀ a ∈ A d, a ∈ g.nodes)
    (hAr : ∀ d, (A d).map Node.id = r.nodesOf d) :
    t.getD r.id 0 = (travelled (A .I) + travelled (A .R) - (offStreets g (A .I) + offStreets g (A .R))) / r.mode.v := by
  have hfold : linesTravelTime routes g.edgesDistance = _ := linesTravelTime_fold g.edgesDistance routes hv []
  rw [ht] at hfold
  cases hfold
  have h1 := lookup_offStreets hs hd (hA .I)
  have h2 := lookup_offStreets hs hd (hA .R)
  have e1 : (A .I).map Node.id = r.nodesI := hAr .I
  have e2 : (A .R).map Node.id = r.nodesR := hAr .R
  rw [e1] at h1
  rw [e2] at h2
  unfold Dict.getD
  rw [(tableOf_fold _ routes [] hids).1 r hr, Option.getD_some, ← h1, ← h2]
  congr 1
  ring

/-- C91, exactly: when the stops of a line are in travel order and all its nodes are stops of some line, the passengers'
times over a cycle are the running time of the vehicle plus the time for the parts of the way without streets, which the
vehicle drives for nothing. -/
theorem C91_exact (hs : CityShape g n) (hd : DistinctIds g) (h : buildExtGraph g routes sPTP freq = .ok x)
    (hids : (routes.map Route.id).Nodup) (hv : ∀ r ∈ routes, r.mode.v ≠ 0) {t : Dict Str K}
    (ht : linesTravelTime routes g.edgesDistance = .ok t) {k : Nat} {r : Route K} (hk : routes[k]? = some r)
    (hc : CustomOk r.nodesI r.nodesR r.stopsI r.stopsR) (hord : ∀ d, (r.stopsOf d).Sublist (r.nodesOf d))
    {A : Dir → List (Node K)} (hA : ∀ d, ∀ a ∈ A d, a ∈ g.nodes ∧ Served g routes a)
    (hAr : ∀ d, (A d).map Node.id = r.nodesOf d) {ts : Dir → List K} (hts : ∀ d, RideTimes x r k d (ts d)) :
    (ts .I).sum + (ts .R).sum = t.getD r.id 0 + (offStreets g (A .I) + offStreets g (A .R)) / r.mode.v := by
  have hr := List.mem_of_getElem? hk
  rw [C91_vehicle_time hs hd hids hv ht hr (fun d a ha => (hA d a ha).1) hAr, ← add_div, sub_add_cancel, add_div]
  have key : ∀ d, (ts d).sum = travelled (A d) / r.mode.v := by
    intro d
    have hnd : (r.nodesOf d).Nodup := by cases d; exacts [hc.noloopI, hc.noloopR]
    have hf : (r.stopsOf d).head? = (r.nodesOf d).head? := by cases d; exacts [hc.firstI, hc.firstR]
    have hl : (r.stopsOf d).getLast? = (r.nodesOf d).getLast? := by cases d; exacts [hc.lastI, hc.lastR]
    have hne : r.stopsOf d ≠ [] := by
      intro he
      rw [he, List.head?_nil, eq_comm, List.head?_eq_none_iff] at hf
      cases d; exacts [hc.nonemptyI hf, hc.nonemptyR hf]
    refine sum_rides (R := Eq) rfl (fun a b c d h1 h2 => by rw [h1, h2]) r.mode.v hne (by rw [hAr]; exact hord d)
      (by rw [hAr]; exact hnd) (by rw [hAr]; exact hf) (by rw [hAr]; exact hl) (hts d).length ?_
    intro i t na nb pre ns post h1 h2 h3 h4
    obtain ⟨e, p, m, he, hi, hj, het, hna, hnb, hm, hmr, hmd, hseq⟩ :=
      ride_place hd h hk (fun a ha => (hA d a ha).1) (hAr d) (hts d) h1 h2 h3 h4
    have hns : ∀ m ∈ ns, m ∈ A d := fun m hm => by rw [h4]; simp [hm]
    have := C36_leg_time_partial hd h he hi hj (fun m hm => (hA d m (hns m hm)).1) hseq (by rw [hmr, hmd]; exact hnd)
      (fun m hm => (hA d m (hns m hm)).2)
    rw [← het, this, hna, hnb, hm]
  rw [key .I, key .R]

/-- C91 (partial: both ways follow the streets, stops are in travel order, all nodes are stops of some line): the running
time of the vehicle over a cycle is the time of the passengers from stop to stop. -/
theorem C91_clocks_agree_partial (hs : CityShape g n) (hd : DistinctIds g) (h : buildExtGraph g routes sPTP freq = .ok x)
    (hids : (routes.map Route.id).Nodup) (hv : ∀ r ∈ routes, r.mode.v ≠ 0) {t : Dict Str K}
    (ht : linesTravelTime routes g.edgesDistance = .ok t) {k : Nat} {r : Route K} (hk : routes[k]? = some r)
    (hc : CustomOk r.nodesI r.nodesR r.stopsI r.stopsR) (hord : ∀ d, (r.stopsOf d).Sublist (r.nodesOf d))
    {A : Dir → List (Node K)} (hA : ∀ d, ∀ a ∈ A d, a ∈ g.nodes ∧ Served g routes a)
    (hAr : ∀ d, (A d).map Node.id = r.nodesOf d) (hst : ∀ d, OnStreets g (r.nodesOf d)) {ts : Dir → List K}
    (hts : ∀ d, RideTimes x r k d (ts d)) : (ts .I).sum + (ts .R).sum = t.getD r.id 0 := by
  have key : ∀ d, offStreets g (A d) = 0 := by
    intro d
    have h1 := lookup_offStreets hs hd (fun a ha => (hA d a ha).1)
    rw [travelled_lookup hs hd (fun a ha => (hA d a ha).1) (by rw [hAr]; exact hst d)] at h1
    simpa using h1
  rw [C91_exact hs hd h hids hv ht hk hc hord hA hAr hts, key, key, add_zero, zero_div, add_zero]

/-- the line through the nodes `A .I` and back through the nodes `A .R` that stops everywhere -/
def lineThrough (id : Str) (m : Mode K) (A : Dir → List (Node K)) : Route K :=
  ⟨id, m, (A .I).map Node.id, (A .R).map Node.id, (A .I).map Node.id, (A .R).map Node.id, .custom⟩

/-- C91 for a line alone: any line through nodes of the city that stops everywhere, has no loops and goes out on streets is
accepted and can be assigned, and the clocks differ by the time for the part of the way back that has no streets. -/
theorem C91_one_line (hs : CityShape g n) (hd : DistinctIds g) (id : Str) (m : Mode K) (hmd : (m.d : K) ≠ 0) (hmv : m.v ≠ 0)
    (sPTP : K) (freq : Option (Dict Str K)) {A : Dir → List (Node K)} (hA : ∀ d, ∀ a ∈ A d, a ∈ g.nodes)
    (hok : CustomOk ((A .I).map Node.id) ((A .R).map Node.id) ((A .I).map Node.id) ((A .R).map Node.id))
    (hst : OnStreets g ((A .I).map Node.id)) :
    ∃ (s : Network K) (x : ExtGraph K) (t : Dict Str K) (ts : Dir → List K),
      (∃ a b c d, mkRoute (some id) m (some a) (some b) (some c) (some d) = .ok (lineThrough id m A)) ∧
      (Network.init g).addRoute (lineThrough id m A) = (s, none) ∧ s.routes = [lineThrough id m A] ∧
      buildExtGraph g s.routes sPTP freq = .ok x ∧ linesTravelTime s.routes g.edgesDistance = .ok t ∧
      (∀ d, RideTimes x (lineThrough id m A) 0 d (ts d)) ∧
      (ts .I).sum + (ts .R).sum = t.getD id 0 + offStreets g (A .R) / m.v := by
  set r := lineThrough id m A with hrd
  have hnodes : ∀ d, (A d).map Node.id = r.nodesOf d := fun d => by cases d <;> rfl
  have hstops : ∀ d, (A d).map Node.id = r.stopsOf d := fun d => by cases d <;> rfl
  have hadd := C26_add_route (Network.Reachable.init (g := g)) r
  have hnone := hadd.1.2 ⟨hst, by simp [Network.init], Or.inr (Or.inl (by simp [Network.init]))⟩
  have hroutes : ((Network.init g).addRoute r).1.routes = [r] := by
    rw [(hadd.2.1 hnone).2.2.1]; rfl
  have hstop : ∀ d, ∀ a ∈ r.stopsOf d, ∃ c ∈ g.nodes, c.id = a := by
    intro d a ha
    rw [← hstops] at ha
    obtain ⟨c, hc, rfl⟩ := List.mem_map.1 ha
    exact ⟨c, hA d c hc, rfl⟩
  have hfit : ∀ r' ∈ [r], r'.Fits g := by
    intro r' hr'
    rw [List.mem_singleton] at hr'
    subst hr'
    refine ⟨fun d i id' h => hstop d id' (List.mem_of_getElem? h.1), fun _ d i id' _ => ?_, hmd, hmv⟩
    cases d
    exacts [hok.nonemptyI, hok.nonemptyR]
  obtain ⟨x, hx⟩ : ∃ x, buildExtGraph g [r] sPTP freq = .ok x := buildExtGraphWith_ok hfit sPTP _
  have hv : ∀ r' ∈ [r], r'.mode.v ≠ 0 := fun r' hr' => (hfit r' hr').speed
  obtain ⟨t, ht⟩ : ∃ t, linesTravelTime [r] g.edgesDistance = .ok t := ⟨_, linesTravelTime_fold g.edgesDistance [r] hv []⟩
  have htype : r.type ≠ .circular := by rw [hrd]; intro h; cases h
  choose ts hts using fun d => rideTimes_exist hd hx (k := 0) (r := r) rfl htype d (hstop d)
  have hserved : ∀ d, ∀ a ∈ A d, a ∈ g.nodes ∧ Served g [r] a := by
    intro d a ha
    obtain ⟨j, hj⟩ := List.mem_iff_getElem?.1 (hA d a ha)
    have hin : a.id ∈ r.stopsOf d := by rw [← hstops]; exact List.mem_map_of_mem ha
    obtain ⟨i, hi⟩ := List.mem_iff_getElem?.1 hin
    exact ⟨hA d a ha, ⟨m, ⟨j, a⟩⟩, ⟨hj, r, List.mem_singleton.2 rfl, rfl, d, i, hi, fun h => absurd h htype⟩, rfl⟩
  have hexact := C91_exact hs hd hx (by simp) hv ht (k := 0) (r := r) rfl hok
    (fun d => by rw [← hstops, ← hnodes]) hserved hnodes hts
  have hoff : offStreets g (A .I) = 0 := by
    have h1 := lookup_offStreets hs hd (hA .I)
    rw [travelled_lookup hs hd (hA .I) hst] at h1
    simpa using h1
  refine ⟨((Network.init g).addRoute r).1, x, t, ts, ⟨_, _, _, _, (C23_custom_route_of_lists id m _ _ _ _).1 hok⟩,
    Prod.ext rfl hnone, hroutes, by rw [hroutes]; exact hx, by rw [hroutes]; exact ht, hts, ?_⟩
  rw [hexact, hoff, zero_add]
  rfl

/-- the nodes of the first zone and the streets between them, for the two cases below -/
theorem first_zone (hs : CityShape g n) (hd : DistinctIds g) (hn : 1 ≤ n) :
    ∃ c p q : Node K, g.nodes[0]? = some c ∧ g.nodes[1]? = some p ∧ g.nodes[2]? = some q ∧ c.id ≠ p.id ∧ c.id ≠ q.id ∧
      p.id ≠ q.id ∧ g.edgeExist p.id q.id = true ∧ g.edgeExist q.id p.id = true ∧ g.edgeExist q.id c.id = true ∧
      g.edgeExist c.id q.id = true ∧ g.edgeExist c.id p.id = false := by
  obtain ⟨c, hc0, hc1⟩ := idAt_get hs (j := 0) (by omega)
  obtain ⟨p, hp0, hp1⟩ := idAt_get hs (j := 1) (by omega)
  obtain ⟨q, hq0, hq1⟩ := idAt_get hs (j := 2) (by omega)
  have hinj : ∀ i j, i < 2 * n + 1 → j < 2 * n + 1 → i ≠ j → idAt g i ≠ idAt g j :=
    fun i j hi hj hij h => hij (idAt_inj hs hd hi hj h)
  have hmc := List.mem_of_getElem? hc0
  have hmp := List.mem_of_getElem? hp0
  have hmq := List.mem_of_getElem? hq0
  have hps := edge_idAt hs (by omega) (by omega) (street_ps (i := 0) (n := n) (by omega))
  have hsc := edge_idAt hs (by omega) (by omega) (street_sc (i := 0) (n := n) (by omega))
  simp only [Nat.mul_zero, Nat.zero_add] at hps hsc
  rw [← hp1, ← hq1] at hps
  rw [← hq1, ← hc1] at hsc
  refine ⟨c, p, q, hc0, hp0, hq0, ?_, ?_, ?_, hps, ?_, hsc, ?_, ?_⟩
  · rw [hc1, hp1]; exact hinj 0 1 (by omega) (by omega) (by omega)
  · rw [hc1, hq1]; exact hinj 0 2 (by omega) (by omega) (by omega)
  · rw [hp1, hq1]; exact hinj 1 2 (by omega) (by omega) (by omega)
  · exact (edgeExist_iff hs hd hmq hmp).2 (street_symm ((edgeExist_iff hs hd hmp hmq).1 hps))
  · exact (edgeExist_iff hs hd hmc hmq).2 (street_symm ((edgeExist_iff hs hd hmq hmc).1 hsc))
  · rw [Bool.eq_false_iff, ne_eq, edgeExist_iff hs hd hmc hmp]
    have ka := hs.kind 0 c hc0
    have kb := hs.kind 1 p hp0
    simp [kindAt] at ka kb
    simp [Street, ka, kb]

/-- out through the given nodes and back through others -/
def outAndBack (a b : List (Node K)) : Dir → List (Node K)
  | .I => a
  | .R => b

/-- C91 fails: in every city with a zone, a network accepts a line from the periphery over the subcentre to the centre that
comes back without streets; its passengers spend on the way back the time of the distance, its vehicles none. -/
theorem C91_shortcut_for_nothing (hs : CityShape g n) (hd : DistinctIds g) (hn : 1 ≤ n) (id : Str) (m : Mode K)
    (hmd : (m.d : K) ≠ 0) (hmv : m.v ≠ 0) (sPTP : K) (freq : Option (Dict Str K)) :
    ∃ (r : Route K) (s : Network K) (x : ExtGraph K) (t : Dict Str K) (ts : Dir → List K) (p c : Node K),
      (∃ a b c d, mkRoute (some id) m (some a) (some b) (some c) (some d) = .ok r) ∧
      (Network.init g).addRoute r = (s, none) ∧ s.routes = [r] ∧ buildExtGraph g s.routes sPTP freq = .ok x ∧
      linesTravelTime s.routes g.edgesDistance = .ok t ∧ (∀ d, RideTimes x r 0 d (ts d)) ∧
      g.nodes[0]? = some c ∧ g.nodes[1]? = some p ∧ r.nodesR = [c.id, p.id] ∧
      (ts .I).sum + (ts .R).sum = t.getD id 0 + nodeDistance c p / m.v := by
  obtain ⟨c, p, q, hc0, hp0, hq0, hcp, hcq, hpq, epq, _, eqc, _, ecp⟩ := first_zone hs hd hn
  obtain ⟨s, x, t, ts, h1, h2, h3, h4, h5, h6, h7⟩ := C91_one_line hs hd id m hmd hmv sPTP freq
    (A := outAndBack [p, q, c] [c, p]) (by
      intro d a ha
      cases d <;> simp only [outAndBack, List.mem_cons, List.not_mem_nil, or_false] at ha
      · rcases ha with rfl | rfl | rfl <;> exact List.mem_of_getElem? (by assumption)
      · rcases ha with rfl | rfl <;> exact List.mem_of_getElem? (by assumption))
    (by constructor <;> simp [outAndBack, hcp, hcp.symm, hcq.symm, hpq])
    (by
      intro e he
      simp only [outAndBack, List.map_cons, List.map_nil, pairs, List.mem_cons, List.not_mem_nil, or_false] at he
      rcases he with rfl | rfl
      · exact epq
      · exact eqc)
  refine ⟨_, s, x, t, ts, p, c, h1, h2, h3, h4, h5, h6, hc0, hp0, rfl, ?_⟩
  rw [h7]
  simp [outAndBack, offStreets, pairs, ecp]

/-- the same line coming back the same way: the clocks agree -/
example (hs : CityShape g n) (hd : DistinctIds g) (hn : 1 ≤ n) (id : Str) (m : Mode K) (hmd : (m.d : K) ≠ 0)
    (hmv : m.v ≠ 0) (sPTP : K) : ∃ (r : Route K) (x : ExtGraph K) (t : Dict Str K) (ts : Dir → List K),
      r.nodesI.length = 3 ∧ buildExtGraph g [r] sPTP none = .ok x ∧ linesTravelTime [r] g.edgesDistance = .ok t ∧
      (∀ d, RideTimes x r 0 d (ts d)) ∧ (ts .I).sum + (ts .R).sum = t.getD id 0 := by
  obtain ⟨c, p, q, hc0, hp0, hq0, hcp, hcq, hpq, epq, eqp, eqc, ecq, _⟩ := first_zone hs hd hn
  obtain ⟨s, x, t, ts, h1, h2, h3, h4, h5, h6, h7⟩ := C91_one_line hs hd id m hmd hmv sPTP none
    (A := outAndBack [p, q, c] [c, q, p]) (by
      intro d a ha
      cases d <;> simp only [outAndBack, List.mem_cons, List.not_mem_nil, or_false] at ha <;>
        rcases ha with rfl | rfl | rfl <;> exact List.mem_of_getElem? (by assumption))
    (by constructor <;> simp [outAndBack, hcp, hcp.symm, hcq, hcq.symm, hpq, hpq.symm])
    (by
      intro e he
      simp only [outAndBack, List.map_cons, List.map_nil, pairs, List.mem_cons, List.not_mem_nil, or_false] at he
      rcases he with rfl | rfl
      · exact epq
      · exact eqc)
  rw [h3] at h4 h5
  refine ⟨_, x, t, ts, rfl, h4, h5, h6, ?_⟩
  rw [h7]
  simp [outAndBack, offStreets, pairs, ecq, eqp]

/-- C91 holds for circular lines that stop everywhere: the running time of the vehicle over a turn is the time of the
passengers from stop to stop. -/
theorem C91_ring (hs : CityShape g n) (hd : DistinctIds g) (h : buildExtGraph g routes sPTP freq = .ok x)
    (hids : (routes.map Route.id).Nodup) (hv : ∀ r ∈ routes, r.mode.v ≠ 0) {t : Dict Str K}
    (ht : linesTravelTime routes g.edgesDistance = .ok t) {k : Nat} {r : Route K} (hk : routes[k]? = some r)
    (hc : r.type = .circular) {d : Dir} {a : Int} {l : List Int} (hl : l ≠ []) (hnodes : r.nodesOf d = a :: (l ++ [a]))
    (hstops : r.stopsOf d = a :: (l ++ [a])) (hnd : (a :: l).Nodup) (hother : ∀ d', d' ≠ d → r.nodesOf d' = [])
    (hst : OnStreets g (r.nodesOf d)) {ts : List K} (hts : RingTimes x r k d ts) : ts.sum = t.getD r.id 0 := by
  have hr := List.mem_of_getElem? hk
  have hin : ∀ b ∈ r.nodesOf d, ∃ c ∈ g.nodes, c.id = b := by
    obtain ⟨b, l', rfl⟩ := List.exists_cons_of_ne_nil hl
    intro c hc'
    have hch := (pairs_forall (fun a b => g.edgeExist a b = true) _).1 hst
    rw [hnodes] at hch hc'
    have h2 : (b :: l' ++ [a]).IsChain fun a b => g.edgeExist a b = true := hch.tail
    have h1 := (List.isChain_cons_cons.1 hch).1
    rw [List.mem_cons] at hc'
    rcases hc' with rfl | hc'
    · exact (edgeExist_nodes h1).1
    · obtain ⟨i, hi, rfl⟩ := List.mem_iff_getElem.1 hc'
      have := List.isChain_iff_getElem.1 hch i (by simp only [List.length_cons] at hi ⊢; omega)
      exact (edgeExist_nodes this).2
  obtain ⟨A, hA, hAr⟩ : ∃ A : List (Node K), (∀ b ∈ A, b ∈ g.nodes) ∧ A.map Node.id = r.nodesOf d := by
    generalize r.nodesOf d = L at hin
    clear hst hnodes
    induction L with
    | nil => exact ⟨[], by simp, rfl⟩
    | cons b L ih =>
      obtain ⟨c, hc1, hc2⟩ := hin b (List.mem_cons_self ..)
      obtain ⟨A, h1, h2⟩ := ih fun b hb => hin b (List.mem_cons_of_mem _ hb)
      refine ⟨c :: A, ?_, by rw [List.map_cons, hc2, h2]⟩
      intro b hb
      rcases List.mem_cons.1 hb with rfl | hb
      · exact hc1
      · exact h1 b hb
  have hoff : offStreets g A = 0 := by
    have h1 := lookup_offStreets hs hd hA
    rw [travelled_lookup hs hd hA (by rw [hAr]; exact hst)] at h1
    simpa using h1
  have htime : t.getD r.id 0 = travelled A / r.mode.v := by
    have h1 := C91_vehicle_time hs hd hids hv ht hr (A := fun d' => if d' = d then A else [])
      (by intro d' b hb; by_cases he : d' = d <;> simp [he] at hb; exact hA b hb)
      (by intro d'; by_cases he : d' = d <;> simp only [he, if_true, if_false]
          · exact hAr
          · rw [hother d' he]; rfl)
    rw [h1]
    cases d <;> simp [hoff, offStreets_nil, travelled_nil]
  rw [htime]
  have hlenA : A.length = (r.stopsOf d).length := by
    rw [← List.length_map (f := Node.id) (as := A), hAr, hnodes, hstops]
  refine sum_steps r.mode.v (by rw [hts.length, hlenA]) ?_
  intro i t' na nb h1 h2 h3
  obtain ⟨e, he, p, m, hi, hj, het, p1, n1, p2, n2, n3⟩ := hts.each i t' h1
  obtain ⟨hp, hn, hpn⟩ := ride_ends hd h he hi hj
  have hpr : p.route = r := by
    have := hp.1
    rw [p1, hk] at this
    exact (Option.some.inj this).symm
  have hmr : m.route = r := by
    have := hn.1
    rw [n1, hk] at this
    exact (Option.some.inj this).symm
  have hid : ∀ (j : Nat) (c : Node K), A[j]? = some c → (r.stopsOf d)[j]? = some c.id := by
    intro j c hj
    rw [hstops, ← hnodes, ← hAr, List.getElem?_map, hj]
    rfl
  have hnb : m.stop.city.node = nb := by
    have h4 := hn.2.1.1
    rw [hmr, n2, n3, hid _ _ h3] at h4
    exact (node_of_id hd (hA nb (List.mem_of_getElem? h3)) (List.mem_of_getElem? hn.2.2.2) (Option.some.inj h4)).symm
  have hna : p.stop.city.node = na := by
    have h4 := hp.2.1.1
    have h5 := hpn.2.2
    unfold Route.stopBefore at h5
    rw [hmr, if_pos hc, n3, n2] at h5
    have h6 : (r.stopsOf d)[p.pos]? = some na.id := by
      rw [← Option.some.inj h5]
      by_cases h0 : i = 0
      · subst h0
        have h7 := hid _ _ h2
        rw [hstops] at h7 ⊢
        simp only [List.getElem?_cons_zero, Option.some.injEq] at h7
        rw [← h7]
        simp
      · rw [if_neg (by omega), Nat.add_sub_cancel]
        exact hid _ _ h2
    rw [hpr, p2, h6] at h4
    exact (node_of_id hd (hA na (List.mem_of_getElem? h2)) (List.mem_of_getElem? hp.2.2.2) (Option.some.inj h4)).symm
  have := C36_ring_leg_time hd h he hi hj (by rw [hmr]; exact hc) hl (by rw [hmr, n2]; exact hnodes)
    (by rw [hmr, n2]; exact hstops) hnd
  rw [← het, this, hna, hnb, hn.2.2.1, hmr]

/-- C91 for the predefined circular lines: with two zones or more they can be assigned, and the clocks agree on both. -/
theorem C91_circular_routes (hs : CityShape g n) (hd : DistinctIds g) (hn : 2 ≤ n) (m : Mode K) (hmd : (m.d : K) ≠ 0)
    (hmv : m.v ≠ 0) (sPTP : K) (freq : Option (Dict Str K)) :
    ∃ (r1 r2 : Route K) (x : ExtGraph K) (t : Dict Str K) (ts1 ts2 : List K),
      (Network.init g).circularRoutes m = .ok [r1, r2] ∧ buildExtGraph g [r1, r2] sPTP freq = .ok x ∧
      linesTravelTime [r1, r2] g.edgesDistance = .ok t ∧ RingTimes x r1 0 .I ts1 ∧ RingTimes x r2 1 .R ts2 ∧
      ts1.length = n ∧ ts2.length = n ∧ ts1.sum = t.getD r1.id 0 ∧ ts2.sum = t.getD r2.id 0 := by
  obtain ⟨r1, r2, hcirc, hm1, hm2, ht1, ht2, hid, hI1, hR1, hR2, hI2, hsI1, hsR1, hsI2, hsR2, hst1, hst2, _⟩ :=
    (C29_circular_routes hs (Network.init g) rfl m).1 hn
  obtain ⟨n', rfl⟩ : ∃ n', n = n' + 2 := ⟨n - 2, by omega⟩
  have hsub : ∀ i, i < n' + 2 → ∃ c ∈ g.nodes, c.id = subOf g i := by
    intro i hi
    obtain ⟨c, h1, h2⟩ := idAt_get hs (j := 2 * i + 2) (by omega)
    exact ⟨c, List.mem_of_getElem? h1, h2⟩
  have hinj : ∀ i j, i < n' + 2 → j < n' + 2 → subOf g i = subOf g j → i = j := by
    intro i j hi hj he
    have := idAt_inj hs hd (by omega) (by omega) he
    omega
  have hndall : ((List.range (n' + 2)).map (subOf g)).Nodup :=
    List.Nodup.map_on (fun i hi j hj he => hinj i j (List.mem_range.1 hi) (List.mem_range.1 hj) he) List.nodup_range
  have e1 : (List.range (n' + 2)).map (subOf g) = subOf g 0 :: ((List.range (n' + 1)).map fun i => subOf g (i + 1)) := by
    rw [List.range_succ_eq_map, List.map_cons, List.map_map]; rfl
  have e2 : ((List.range (n' + 2)).map (subOf g)).reverse = subOf g (n' + 1) :: ((List.range (n' + 1)).map (subOf g)).reverse := by
    rw [List.range_succ, List.map_append, List.reverse_append]; rfl
  have hin1 : ∀ a ∈ r1.stopsOf .I, ∃ c ∈ g.nodes, c.id = a := by
    intro a ha
    change a ∈ r1.stopsI at ha
    rw [hsI1, hI1, List.mem_append, List.mem_map, List.mem_singleton] at ha
    rcases ha with ⟨i, hi, rfl⟩ | rfl
    · exact hsub i (List.mem_range.1 hi)
    · exact hsub 0 (by omega)
  have hin2 : ∀ a ∈ r2.stopsOf .R, ∃ c ∈ g.nodes, c.id = a := by
    intro a ha
    change a ∈ r2.stopsR at ha
    rw [hsR2, hR2, List.mem_append, List.mem_reverse, List.mem_map, List.mem_singleton] at ha
    rcases ha with ⟨i, hi, rfl⟩ | rfl
    · exact hsub i (List.mem_range.1 hi)
    · exact hsub _ (by omega)
  have hfit : ∀ r ∈ [r1, r2], r.Fits g := by
    intro r hr
    simp only [List.mem_cons, List.not_mem_nil, or_false] at hr
    rcases hr with rfl | rfl
    · refine ⟨fun d i id h => ?_, fun h => absurd ht1 h, by rw [hm1]; exact hmd, by rw [hm1]; exact hmv⟩
      cases d
      · exact hin1 id (List.mem_of_getElem? h.1)
      · have h1 := h.1
        change r.stopsR[i]? = some id at h1
        rw [hsR1, hR1] at h1
        simp at h1
    · refine ⟨fun d i id h => ?_, fun h => absurd ht2 h, by rw [hm2]; exact hmd, by rw [hm2]; exact hmv⟩
      cases d
      · have h1 := h.1
        change r.stopsI[i]? = some id at h1
        rw [hsI2, hI2] at h1
        simp at h1
      · exact hin2 id (List.mem_of_getElem? h.1)
  obtain ⟨x, hx⟩ : ∃ x, buildExtGraph g [r1, r2] sPTP freq = .ok x := buildExtGraphWith_ok hfit sPTP _
  have hv : ∀ r ∈ [r1, r2], r.mode.v ≠ 0 := fun r hr => (hfit r hr).speed
  obtain ⟨t, ht⟩ : ∃ t, linesTravelTime [r1, r2] g.edgesDistance = .ok t :=
    ⟨_, linesTravelTime_fold g.edgesDistance [r1, r2] hv []⟩
  obtain ⟨ts1, hts1⟩ := ringTimes_exist hd hx (k := 0) (r := r1) rfl ht1 .I hin1
  obtain ⟨ts2, hts2⟩ := ringTimes_exist hd hx (k := 1) (r := r2) rfl ht2 .R hin2
  have hids : ([r1, r2].map Route.id).Nodup := by simp [hid]
  refine ⟨r1, r2, x, t, ts1, ts2, hcirc, hx, ht, hts1, hts2, ?_, ?_, ?_, ?_⟩
  · rw [hts1.length]
    change r1.stopsI.length - 1 = _
    rw [hsI1, hI1]; simp
  · rw [hts2.length]
    change r2.stopsR.length - 1 = _
    rw [hsR2, hR2]; simp
  · refine C91_ring hs hd hx hids hv ht (k := 0) rfl ht1 (d := .I) (a := subOf g 0)
      (l := (List.range (n' + 1)).map fun i => subOf g (i + 1)) (by simp) ?_ ?_ (by rw [← e1]; exact hndall) ?_ hst1 hts1
    · change r1.nodesI = _
      rw [hI1, e1]; rfl
    · change r1.stopsI = _
      rw [hsI1, hI1, e1]; rfl
    · intro d' hd'
      cases d'
      · exact absurd rfl hd'
      · exact hR1
  · refine C91_ring hs hd hx hids hv ht (k := 1) rfl ht2 (d := .R) (a := subOf g (n' + 1))
      (l := ((List.range (n' + 1)).map (subOf g)).reverse) (by simp) ?_ ?_
      (by rw [← e2]; exact List.nodup_reverse.2 hndall) ?_ hst2 hts2
    · change r2.nodesR = _
      rw [hR2, e2]; rfl
    · change r2.stopsR = _
      rw [hsR2, hR2, e2]; rfl
    · intro d' hd'
      cases d'
      · exact hI2
      · exact absurd rfl hd'

end Generic

/-- the way over another point is not shorter -/
theorem nodeDistance_triangle (a b c : Node ℝ) : nodeDistance a c ≤ nodeDistance a b + nodeDistance b c := by
  show Real.sqrt ((a.x - c.x) ^ 2 + (a.y - c.y) ^ 2) ≤
    Real.sqrt ((a.x - b.x) ^ 2 + (a.y - b.y) ^ 2) + Real.sqrt ((b.x - c.x) ^ 2 + (b.y - c.y) ^ 2)
  have h1 := Real.sqrt_nonneg ((a.x - b.x) ^ 2 + (a.y - b.y) ^ 2)
  have h2 := Real.sqrt_nonneg ((b.x - c.x) ^ 2 + (b.y - c.y) ^ 2)
  have e1 := Real.sq_sqrt (show 0 ≤ (a.x - b.x) ^ 2 + (a.y - b.y) ^ 2 by positivity)
  have e2 := Real.sq_sqrt (show 0 ≤ (b.x - c.x) ^ 2 + (b.y - c.y) ^ 2 by positivity)
  refine Real.sqrt_le_iff.2 ⟨by positivity, ?_⟩
  have h3 : (a.x - b.x) * (b.x - c.x) + (a.y - b.y) * (b.y - c.y) ≤
      Real.sqrt ((a.x - b.x) ^ 2 + (a.y - b.y) ^ 2) * Real.sqrt ((b.x - c.x) ^ 2 + (b.y - c.y) ^ 2) := by
    rw [← Real.sqrt_mul (by positivity)]
    refine Real.le_sqrt_of_sq_le ?_
    nlinarith [sq_nonneg ((a.x - b.x) * (b.y - c.y) - (a.y - b.y) * (b.x - c.x))]
  nlinarith

theorem travelled_filter_le (P : Node ℝ → Bool) (a b : Node ℝ) (ns : List (Node ℝ)) :
    travelled (a :: (ns.filter P ++ [b])) ≤ travelled (a :: (ns ++ [b])) := by
  induction ns generalizing a with
  | nil => exact le_refl _
  | cons c t ih =>
    rw [List.cons_append, travelled_cons_cons]
    by_cases hc : P c = true
    · rw [List.filter_cons_of_pos hc, List.cons_append, travelled_cons_cons]
      exact add_le_add_right (ih c) _
    · rw [List.filter_cons_of_neg hc]
      refine le_trans ?_ (add_le_add_right (ih c) _)
      generalize t.filter P = l
      cases l with
      | nil => simpa [travelled_cons_cons, travelled_single] using nodeDistance_triangle a c b
      | cons d l =>
        rw [List.cons_append, travelled_cons_cons, travelled_cons_cons]
        linarith [nodeDistance_triangle a c d]

/-- C91, over the real numbers and whatever nodes are served: on streets and with stops in travel order, the passengers'
times over a cycle are at most the running time of the vehicle. -/
theorem C91_passengers_not_slower {g : Graph ℝ} {n : Nat} {routes : List (Route ℝ)} {sPTP : ℝ}
    {freq : Option (Dict Str ℝ)} {x : ExtGraph ℝ} (hs : CityShape g n) (hd : DistinctIds g)
    (h : buildExtGraph g routes sPTP freq = .ok x)
    (hids : (routes.map Route.id).Nodup) (hv : ∀ r ∈ routes, 0 < r.mode.v) {t : Dict Str ℝ}
    (ht : linesTravelTime routes g.edgesDistance = .ok t) {k : Nat} {r : Route ℝ} (hk : routes[k]? = some r)
    (hc : CustomOk r.nodesI r.nodesR r.stopsI r.stopsR) (hord : ∀ d, (r.stopsOf d).Sublist (r.nodesOf d))
    {A : Dir → List (Node ℝ)} (hA : ∀ d, ∀ a ∈ A d, a ∈ g.nodes)
    (hAr : ∀ d, (A d).map Node.id = r.nodesOf d) (hst : ∀ d, OnStreets g (r.nodesOf d)) {ts : Dir → List ℝ}
    (hts : ∀ d, RideTimes x r k d (ts d)) : (ts .I).sum + (ts .R).sum ≤ t.getD r.id 0 := by
  classical
  have hr := List.mem_of_getElem? hk
  have hoff : ∀ d, offStreets g (A d) = 0 := by
    intro d
    have h1 := lookup_offStreets hs hd (hA d)
    rw [travelled_lookup hs hd (hA d) (by rw [hAr]; exact hst d)] at h1
    simpa using h1
  rw [C91_vehicle_time hs hd hids (fun r hr => (hv r hr).ne') ht hr hA hAr, hoff, hoff, add_zero, sub_zero, add_div]
  have key : ∀ d, (ts d).sum ≤ travelled (A d) / r.mode.v := by
    intro d
    have hnd : (r.nodesOf d).Nodup := by cases d; exacts [hc.noloopI, hc.noloopR]
    have hf : (r.stopsOf d).head? = (r.nodesOf d).head? := by cases d; exacts [hc.firstI, hc.firstR]
    have hl : (r.stopsOf d).getLast? = (r.nodesOf d).getLast? := by cases d; exacts [hc.lastI, hc.lastR]
    have hne : r.stopsOf d ≠ [] := by
      intro he
      rw [he, List.head?_nil, eq_comm, List.head?_eq_none_iff] at hf
      cases d; exacts [hc.nonemptyI hf, hc.nonemptyR hf]
    refine sum_rides (R := fun a b => a ≤ b) (le_refl _) (fun a b c d h1 h2 => add_le_add h1 h2) r.mode.v hne
      (by rw [hAr]; exact hord d) (by rw [hAr]; exact hnd) (by rw [hAr]; exact hf) (by rw [hAr]; exact hl) (hts d).length ?_
    intro i t na nb pre ns post h1 h2 h3 h4
    obtain ⟨e, p, m, he, hi, hj, het, hna, hnb, hm, hmr, hmd, hseq⟩ := ride_place hd h hk (hA d) (hAr d) (hts d) h1 h2 h3 h4
    have hns : ∀ m ∈ ns, m ∈ A d := fun m hm => by rw [h4]; simp [hm]
    have := C36_leg_time_served_nodes hd h he hi hj (fun m hm => hA d m (hns m hm)) hseq (by rw [hmr, hmd]; exact hnd)
    rw [← het, this, hna, hnb, hm]
    exact div_le_div_of_nonneg_right (travelled_filter_le _ _ _ _) (hv r hr).le
  exact add_le_add (key .I) (key .R)

end Sidermit
