import Verif.Props.Via
import Verif.Proofs.Bounds
import Mathlib.Analysis.Complex.Norm

/-!
C80: how short and how long a trip can be.
-/

set_option linter.unusedSectionVars false

namespace Sidermit

section Generic

variable {K : Type} [Field K] [LinearOrder K] [IsStrictOrderedRing K] [PyMath K] {g : Graph K} {routes : List (Route K)}
  {sPTP : K} {freq : Option (Dict Str K)} {x : ExtGraph K} {pas : Passenger K} {i j k : CityNode K}

/-- the lines stop only where they pass -/
def StopsPassed (routes : List (Route K)) : Prop := ∀ r ∈ routes, ∀ d, ∀ id ∈ r.stopsOf d, id ∈ r.nodesOf d

/-- vehicles per hour that can be boarded at a stop -/
def vehiclesAt (x : ExtGraph K) (s : StopNode K) : K :=
  ((x.edges.filter fun e => decide (e.type = .boarding ∧ e.i = .stop s)).map lineFreq).sum

theorem places (hx : buildExtGraph g routes sPTP freq = .ok x) : ∀ e ∈ x.edges, place e.i ≠ place e.j → e.type = .route := by
  obtain ⟨entries, h⟩ := extSpec hx
  intro e he hne
  rw [h.mem_edges] at he
  rcases he with ⟨s, hs, rfl | rfl⟩ | ⟨m, _, _, rfl⟩ | ⟨m, _, _, rfl⟩ | ⟨m, _, p, _, rfl⟩
  · exact absurd rfl hne
  · exact absurd rfl hne
  · exact absurd rfl hne
  · exact absurd rfl hne
  · rfl

theorem withinSpeed (hp : Plane K) (hd : DistinctIds g) (ha : Admissible routes sPTP freq pas)
    (hx : buildExtGraph g routes sPTP freq = .ok x) (hst : StopsPassed routes) {V : K} (hV : ∀ r ∈ routes, r.mode.v ≤ V) :
    WithinSpeed x.edges V := by
  have hpl := places hx
  obtain ⟨entries, h⟩ := extSpec hx
  intro e he
  by_cases hpe : place e.i = place e.j
  · exact Or.inr hpe
  left
  have hty := hpl e he hpe
  have htime := (ha.searchable hx).time e he
  rw [h.mem_edges] at he
  rcases he with ⟨s, hs, rfl | rfl⟩ | ⟨m, _, _, rfl⟩ | ⟨m, _, _, rfl⟩ | ⟨m, hm, p, hp', rfl⟩
  · cases hty
  · cases hty
  · cases hty
  · cases hty
  · have h1 := (h.ents.prev m hm p).1 hp'
    have hpw := (h.mem_node hd p).1 h1.1
    have hmw := (h.mem_node hd m.node).1 ⟨m, hm, rfl⟩
    have hr : m.node.route ∈ routes := List.mem_of_getElem? hmw.1
    have hv : 0 < m.node.stop.mode.v := by rw [hmw.2.2.1]; exact (ha.modes _ hr).speed
    have hvV : m.node.stop.mode.v ≤ V := by rw [hmw.2.2.1]; exact hV _ hr
    have hab : p.stop.city.node.id ≠ m.node.stop.city.node.id := by
      intro hid
      refine hpe ?_
      have := CityNode.In.ext hd hpw.2.2.2 hmw.2.2.2 hid
      simp only [place, this]
    have hin : m.node.stop.city.node.id ∈ m.node.route.nodesOf m.node.dir :=
      hst _ hr _ _ (List.mem_of_getElem? hmw.2.1.1)
    have hleg := legLoop_ge hp (x.nodes.map fun p => p.1.node) hab (m.node.stop.city.node.x, m.node.stop.city.node.y)
      (m.node.route.nodesOf m.node.dir) hin false (p.stop.city.node.x, p.stop.city.node.y) 0
    rw [zero_add] at hleg
    simp only at htime ⊢
    refine le_trans ?_ (mul_le_mul_of_nonneg_right hvV htime)
    rw [mul_div_cancel₀ _ hv.ne']
    exact hleg

/-- C80: no trip is shorter than the straight line at the speed of the fastest mode, the walks to the first stop and out of its
mode, and the wait for the first of all the vehicles that stop there. -/
theorem C80_straight_line (hp : Plane K) (hd : DistinctIds g) (ha : Admissible routes sPTP freq pas)
    (hx : buildExtGraph g routes sPTP freq = .ok x) (hst : StopsPassed routes) {V : K} (hV0 : 0 < V)
    (hV : ∀ r ∈ routes, r.mode.v ≤ V) {r : HResult K}
    (hr : buildHyperpath ⟨x.nodes, x.edges, pas, some i, some j⟩ = .ok r) {s : StopNode K} (hs : s ∈ stopsHere x i) :
    ((2 * walkTime pas s + waitCost pas s / vehiclesAt x s + nodeDistance i.node j.node / V : K) : WithTop K) ≤ r.label (.stop s) := by
  have hg : Searchable (allNodes x.nodes) x.edges pas := ha.searchable hx
  have hw := walkEdges hd hx
  unfold stopsHere at hs
  simp only [List.mem_filter, decide_eq_true_eq] at hs
  have hsn : ENode.stop s ∈ allNodes x.nodes := by
    rw [mem_allNodes]
    simpa using hs.1
  by_cases hfin : r.label (.stop s) = ⊤
  · rw [hfin]; exact le_top
  obtain ⟨c, hc, hl⟩ := C38_attained ha hx hr hsn hfin
  have hacc : accessTime pas (some i) (.stop s) = walkTime pas s := by
    unfold accessTime
    simp only
    rw [if_pos (by rw [hs.2])]
    rfl
  rw [hl, hacc, WithTop.coe_le_coe]
  have hspeed := withinSpeed hp hd ha hx hst hV
  generalize hn : ENode.stop s = n at hc
  cases hc with
  | arrive d hd => cases hn
  | go e he hb hi hj c hc =>
    exfalso
    rcases hw.modes e he with h | ⟨c, h⟩ | ⟨s', h⟩
    · obtain ⟨entries, hsp⟩ := extSpec hx
      rw [hsp.mem_edges] at he
      rcases he with ⟨s, hs, rfl | rfl⟩ | ⟨m, _, _, rfl⟩ | ⟨m, _, _, rfl⟩ | ⟨m, _, p, _, rfl⟩
      · cases hn
      · cases h
      · exact hb rfl
      · cases hn
      · cases hn
    · rw [h] at hn; cases hn
    · rw [h] at hn hj
      cases hn
      exact hj (by rw [hs.2]; rfl)
  | wait s' l hne hnd hl' hs' =>
    cases hn
    have hpos := freqs_pos hne fun p hp => (hl' p hp).2.2.2
    have hle : (l.map fun p => lineFreq p.1).sum ≤ vehiclesAt x s := by
      have h1 := sum_le_of_subset (f := (lineFreq : EEdge K → K)) (l := l.map Prod.fst)
        (m := x.edges.filter fun e => decide (e.type = .boarding ∧ e.i = .stop s)) hnd (by
          intro e he
          obtain ⟨p, hp, rfl⟩ := List.mem_map.1 he
          obtain ⟨g1, g2, g3, _⟩ := hl' p hp
          exact List.mem_filter.2 ⟨g1, by simp [g2, g3]⟩) (by
          intro e he
          obtain ⟨h1, h2⟩ := List.mem_filter.1 he
          simp only [decide_eq_true_eq] at h2
          exact (hg.board e h1 h2.1).2.1)
      rw [List.map_map] at h1
      exact h1
    have hwait : 0 ≤ waitCost pas s := by
      obtain ⟨p, hp⟩ := List.exists_mem_of_ne_nil _ hne
      obtain ⟨_, _, s', hs', hth⟩ := hg.board p.1 (hl' p hp).1 (hl' p hp).2.1
      rw [(hl' p hp).2.2.1] at hs'
      cases hs'
      exact div_nonneg (mul_nonneg hth.le hg.pw.le) hg.pv.le
    have h1 : waitCost pas s / vehiclesAt x s ≤ waitCost pas s / (l.map fun p => lineFreq p.1).sum :=
      div_le_div_of_nonneg_left hwait hpos hle
    have h2 := wait_at_least l (fun p => lineFreq p.1) (fun p => legTime pas (some j) p.1 + p.2) hpos
      (fun p hp => (hl' p hp).2.2.2) (waitCost pas s) (nodeDistance i.node j.node / V + walkTime pas s) (by
        intro p hpl
        have h0 : 0 ≤ legTime pas (some j) p.1 := legTime_nonneg (h := ⟨x.nodes, x.edges, pas, some i, some j⟩) hg (hl' p hpl).1
        have h1 := straight_le_strategy hp (i := i) (j := j) hg hw hV0 hspeed (places hx) (hs' p hpl)
        have h2 : place p.1.i = place p.1.j := by
          by_contra hne
          have := places hx p.1 (hl' p hpl).1 hne
          rw [(hl' p hpl).2.1] at this
          cases this
        have h3 : walkOut pas p.1.i = walkOut pas p.1.j := by
          rcases hw.modes p.1 (hl' p hpl).1 with h | ⟨c, h⟩ | ⟨s', h⟩
          · unfold walkOut; rw [h]
          · rw [(hl' p hpl).2.2.1] at h; cases h
          · have := (hl' p hpl).2.1
            rw [h] at this; cases this
        rw [(hl' p hpl).2.2.1] at h2 h3
        rw [← h2, ← h3] at h1
        have h4 : segment (place (.stop s)) (place (.city j)) = nodeDistance i.node j.node := by
          rw [← hs.2]; rfl
        have h5 : walkOut pas (.stop s) = walkTime pas s := rfl
        rw [h4, h5] at h1
        linarith)
    linarith

/-- the time in a vehicle from one route node to another, leg by leg -/
inductive RideTime (edges : List (EEdge K)) : RouteNode K → RouteNode K → K → Prop
  | here (n : RouteNode K) : RideTime edges n n 0
  | next (e : EEdge K) (he : e ∈ edges) (p n q : RouteNode K) (hi : e.i = .route p) (hj : e.j = .route n) (t : K)
      (h : RideTime edges n q t) : RideTime edges p q (e.t + t)

/-- C80: no trip is longer than with any one line that goes there: the walks at both ends, the wait for this line alone and
the time in its vehicle. -/
theorem C80_direct_line (hd : DistinctIds g) (ha : Admissible routes sPTP freq pas) (hx : buildExtGraph g routes sPTP freq = .ok x)
    (hij : i ≠ j) {r : HResult K} (hr : buildHyperpath ⟨x.nodes, x.edges, pas, some i, some j⟩ = .ok r)
    {s : StopNode K} (hs : s ∈ stopsHere x i) {b a : EEdge K} {n q : RouteNode K} {t : K}
    (hb : b ∈ x.edges) (hbt : b.type = .boarding) (hbi : b.i = .stop s) (hbj : b.j = .route n) (hf : 0 < lineFreq b)
    (hride : RideTime x.edges n q t)
    (hae : a ∈ x.edges) (hat : a.type = .alighting) (hai : a.i = .route q) {s' : StopNode K} (haj : a.j = .stop s') (hs' : s'.city = j) :
    r.label (.stop s) ≤ ((walkTime pas s + waitCost pas s / lineFreq b + t + walkTime pas s' : K) : WithTop K) := by
  have hg : Searchable (allNodes x.nodes) x.edges pas := ha.searchable hx
  have hw := walkEdges hd hx
  have hroute : ∀ e ∈ x.edges, ∀ p n, e.i = .route p → e.j = .route n → e.type = .route := by
    obtain ⟨entries, h⟩ := extSpec hx
    intro e he p n hi hj
    rw [h.mem_edges] at he
    rcases he with ⟨s, hs, rfl | rfl⟩ | ⟨m, _, _, rfl⟩ | ⟨m, _, _, rfl⟩ | ⟨m, _, p, _, rfl⟩
    · cases hi
    · cases hi
    · cases hi
    · cases hj
    · rfl
  have hsn : ENode.stop s' ∈ allNodes x.nodes := by
    rw [← haj]
    exact (hg.ends a hae).2
  have h1 : Strategy x.edges pas (some i) (some j) (.stop s') (walkTime pas s') := by
    have := Strategy.go (edges := x.edges) (pas := pas) (origin := some i) (dest := some j) _ (hw.leave s' hsn) (by simp)
      (by simp) (by simpa [hs'] using fun h => hij h.symm) 0 (by rw [hs']; exact Strategy.arrive j rfl)
    rw [add_zero] at this
    exact this
  have h2 : Strategy x.edges pas (some i) (some j) (.route q) (walkTime pas s') := by
    have := Strategy.go (edges := x.edges) (pas := pas) (origin := some i) (dest := some j) a hae (by rw [hat]; simp)
      (by rw [hai]; simp) (by rw [haj]; simp) _ (by rw [haj]; exact h1)
    rw [hai] at this
    have h0 : legTime pas (some j) a = 0 := by
      unfold legTime
      rw [hat, haj]
      simp only
      rw [if_pos (by rw [hs'])]
    rwa [h0, zero_add] at this
  have h3 : Strategy x.edges pas (some i) (some j) (.route n) (t + walkTime pas s') := by
    clear hbj
    induction hride with
    | here n => rw [zero_add]; exact h2
    | next e he p n q hi hj t h ih =>
      have := Strategy.go (edges := x.edges) (pas := pas) (origin := some i) (dest := some j) e he
        (by rw [hroute e he p n hi hj]; simp) (by rw [hi]; simp) (by rw [hj]; simp) _ (by rw [hj]; exact ih hai h2)
      have h0 : legTime pas (some j) e = e.t := by
        unfold legTime
        rw [hroute e he p n hi hj]
      rw [hi, h0, ← add_assoc] at this
      exact this
  have h4 := Strategy.wait (edges := x.edges) (pas := pas) (origin := some i) (dest := some j) s [(b, t + walkTime pas s')]
    (by simp) (by simp) (by simpa using ⟨hb, hbt, hbi, hf⟩) (by simpa [hbj] using h3)
  refine (C39_optimal ha hx hr h4).trans ?_
  rw [WithTop.coe_le_coe]
  have h0 : legTime pas (some j) b = 0 := by
    unfold legTime
    rw [hbt]
    exact (hg.board b hb hbt).1
  have hacc : accessTime pas (some i) (.stop s) = walkTime pas s := by
    unfold stopsHere at hs
    simp only [List.mem_filter, decide_eq_true_eq] at hs
    unfold accessTime
    simp only
    rw [if_pos (by rw [hs.2])]
    rfl
  rw [hacc]
  simp only [List.map_cons, List.map_nil, List.sum_cons, List.sum_nil, add_zero, h0, zero_add]
  rw [add_div, mul_div_cancel_left₀ _ hf.ne']
  linarith

end Generic

/-- the distances of the code over the real numbers are those of the plane -/
theorem realPlane : Plane ℝ := by
  have h : ∀ a b : ℝ × ℝ, segment a b = ‖(⟨a.1 - b.1, a.2 - b.2⟩ : ℂ)‖ := by
    intro a b
    rw [Complex.norm_eq_sqrt_sq_add_sq]
    rfl
  refine ⟨?_, ?_, ?_⟩
  · intro a
    unfold segment
    simp [PyMath.sqrt]
  · intro a b
    rw [h]
    exact norm_nonneg _
  · intro a b c
    rw [h, h, h]
    have : (⟨a.1 - c.1, a.2 - c.2⟩ : ℂ) = ⟨a.1 - b.1, a.2 - b.2⟩ + ⟨b.1 - c.1, b.2 - c.2⟩ := by
      apply Complex.ext <;> simp
    rw [this]
    exact norm_add_le _ _

/-- the lines of accepted custom routes stop only where they pass -/
theorem CustomOk.passed {K : Type} {r : Route K} (h : CustomOk r.nodesI r.nodesR r.stopsI r.stopsR) (d : Dir) :
    ∀ id ∈ r.stopsOf d, id ∈ r.nodesOf d := by
  cases d
  · exact h.stopsI_on
  · exact h.stopsR_on

/-! ## examples -/

/-- the hypotheses of the lower bound hold: a line over the CBD in a city with four zones -/
example : ∃ (g : Graph ℝ) (r : Route ℝ) (x : ExtGraph ℝ) (pas : Passenger ℝ) (i j : CityNode ℝ) (s : StopNode ℝ) (res : HResult ℝ),
    buildFromParameters (K := ℝ) 4 10 (1/2) 2 none none none none none = .ok g ∧ DistinctIds g ∧ Admissible [r] 2 none pas ∧
    buildExtGraph g [r] 2 none = .ok x ∧ StopsPassed [r] ∧ (∀ r' ∈ [r], r'.mode.v ≤ 20) ∧ i.node.id = 2 ∧ j.node.id = 4 ∧
    buildHyperpath ⟨x.nodes, x.edges, pas, some i, some j⟩ = .ok res ∧ s ∈ stopsHere x i := by
  obtain ⟨g, r, x, e, p, n, a, b, c, hg, hr, hx, he, hi, hj, _, _, ha, _, hc, hids, _⟩ :=
    C36_skipped_nodes ⟨1, "bus".toList, 0, 8, 2, 1/10, 20, 2, 120, 120, 1/2, 1/10, 1, 1⟩ (by simp) (by norm_num) 2 none
  have hr' := (C23_custom_route_of_lists "r".toList (⟨1, "bus".toList, 0, 8, 2, 1/10, 20, 2, 120, 120, 1/2, 1/10, 1, 1⟩ : Mode ℝ)
    [2, 0, 4] [4, 0, 2] [2, 4] [4, 2]).1 (by constructor <;> decide)
  have hreq : r = ⟨"r".toList, ⟨1, "bus".toList, 0, 8, 2, 1/10, 20, 2, 120, 120, 1/2, 1/10, 1, 1⟩, [2, 0, 4], [4, 0, 2], [2, 4], [4, 2],
      .custom⟩ := by
    have := hr.symm.trans hr'
    exact Except.ok.inj this
  have hd := (buildFromParameters_shape hg).2.2
  have hadm : Admissible [r] 2 none (⟨4, 2, 4, 6, 16, 2, 4, 6, 16⟩ : Passenger ℝ) := by
    subst hreq
    refine ⟨?_, ?_, by norm_num, fun y => Real.sqrt_nonneg y, by norm_num, by norm_num, by norm_num⟩
    · intro r hr
      rw [List.mem_singleton.1 hr]
      constructor <;> norm_num
    · intro r hr
      rw [List.mem_singleton.1 hr]
      simp [frequencies, defaultFrequencies, Dict.set, Dict.getD, Dict.get?]
  obtain ⟨entries, hsp⟩ := extSpec hx
  have hst : p.stop ∈ stopsOf x.nodes := by
    obtain ⟨p', _, hp', _, _, hpi, _⟩ := (C36_route_edges hd hx).1 e he ((by
      rw [hsp.mem_edges] at he
      rcases he with ⟨s, hs, rfl | rfl⟩ | ⟨m, _, _, rfl⟩ | ⟨m, _, _, rfl⟩ | ⟨m, _, q, _, rfl⟩
      · cases hi
      · cases hi
      · cases hi
      · cases hj
      · rfl))
    rw [hi] at hpi
    cases hpi
    refine (hsp.mem_stop hd _).2 ⟨hp'.2.2.2, p.route, List.mem_of_getElem? hp'.1, hp'.2.2.1.symm, p.dir, p.pos, hp'.2.1⟩
  obtain ⟨res, hres⟩ := C37_terminates hadm hx (some p.stop.city) (some n.stop.city)
  refine ⟨g, r, x, _, p.stop.city, n.stop.city, p.stop, res, hg, hd, hadm, hx, ?_, ?_, ?_, ?_, hres, ?_⟩
  · intro r' hr' d
    rw [List.mem_singleton.1 hr', hreq]
    cases d <;> simp [Route.stopsOf, Route.nodesOf]
  · intro r' hr'
    rw [List.mem_singleton.1 hr', hreq]
  · rw [hreq] at hids
    rw [ha]
    simpa using congrArg List.head? hids
  · rw [hreq] at hids
    rw [hc]
    simp only [List.map_cons, List.map_nil, List.cons.injEq] at hids
    exact hids.2.2.1
  · unfold stopsHere
    simpa using hst

section Examples

attribute [local instance] ratMath ratText

/-- the node of the city where a stop is -/
def stopId : ENode ℚ → Option Int
  | .stop s => some s.city.node.id
  | _ => none

/-- the upper bound is attained by a single line: line `a` from node 2 to the CBD -/
example : ∃ b ∈ hubExt.edges, ∃ e ∈ hubExt.edges, ∃ a ∈ hubExt.edges, b.type = .boarding ∧ b.j = e.i ∧ e.type = .route ∧
    e.j = a.i ∧ a.type = .alighting ∧ 0 < lineFreq b ∧ stopId b.i = some 2 ∧
    stopId a.j = some 0 ∧
    serviceLabels (demoCity 3) hubRoutes 2 none demoPassenger 2 0 =
      some [some (0 + 1/2 * 4 / 2 / lineFreq b + (e.t + 0) + 0)] := by decide +kernel

end Examples

end Sidermit
