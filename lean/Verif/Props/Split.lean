import Verif.Props.Service
import Verif.Props.Rides
import Verif.Props.Costs
import Verif.Props.UsersCost
import Mathlib.Algebra.BigOperators.Group.Finset.Basic
import Mathlib.Algebra.Order.BigOperators.Ring.Finset
import Mathlib.Algebra.BigOperators.Field

/-!
C94: lines split into parallel lines that share their vehicles.
-/

set_option linter.unusedSectionVars false

namespace Sidermit

section Generic

variable {K : Type} [Field K] [LinearOrder K] [IsStrictOrderedRing K] [PyMath K] {g : Graph K}
  {routes routes' : List (Route K)} {sPTP : K} {freq freq' : Option (Dict Str K)} {x x' : ExtGraph K} {pas : Passenger K}
  {f f' : Dict Str K} {whole : Route K → Route K}

/-- every line of the first network is replaced by lines of the same mode, way and stops, called by other names, whose
frequencies add up to its own; `whole` tells which line another one is a part of -/
structure SplitLines (routes routes' : List (Route K)) (f f' : Dict Str K) (whole : Route K → Route K) : Prop where
  ids : (routes.map Route.id).Nodup
  ids' : (routes'.map Route.id).Nodup
  known : ∀ q ∈ routes', whole q ∈ routes
  same : ∀ q ∈ routes', q = { whole q with id := q.id }
  parts : ∀ r ∈ routes, ∃ q ∈ routes', whole q = r
  freqs : ∀ r ∈ routes, f.getD r.id 0 = ((routes'.filter fun q => whole q = r).map fun q => f'.getD q.id 0).sum

/-- the node of the whole line -/
def wholeNode (routes : List (Route K)) (whole : Route K → Route K) (n : RouteNode K) : RouteNode K :=
  { n with ridx := routes.idxOf (whole n.route), route := whole n.route }

/-- the node of a part -/
def partNode (routes' : List (Route K)) (q : Route K) (n : RouteNode K) : RouteNode K :=
  { n with ridx := routes'.idxOf q, route := q }

/-- the node in the network before the split -/
def wholeENode (routes : List (Route K)) (whole : Route K → Route K) : ENode K → ENode K
  | .route n => .route (wholeNode routes whole n)
  | n => n

/-- the boarding edge of a route node -/
def boardEdge (f : Dict Str K) (n : RouteNode K) : EEdge K :=
  ⟨.stop n.stop, .route n, 0, some (f.getD n.route.id 0 / (n.route.mode.d : K)), .boarding⟩

/-- the boarding edges at a stop -/
def boardEdges (edges : List (EEdge K)) (s : StopNode K) : Finset (EEdge K) :=
  (edges.filter fun e => e.type = .boarding ∧ e.i = .stop s).toFinset

theorem mem_boardEdges {edges : List (EEdge K)} {s : StopNode K} {e : EEdge K} :
    e ∈ boardEdges edges s ↔ e ∈ edges ∧ e.type = .boarding ∧ e.i = .stop s := by
  simp [boardEdges]

theorem mem_boardEdges_ext (hg : DistinctIds g) (hx : buildExtGraph g routes sPTP freq = .ok x) {s : StopNode K}
    {e : EEdge K} : e ∈ boardEdges x.edges s ↔ ∃ n : RouteNode K, n.Wanted g routes ∧ n.CanBoard ∧ n.stop = s ∧
      e = boardEdge (frequencies routes freq) n := by
  rw [mem_boardEdges, ← and_assoc, (C35_edges hg hx e).2.1]
  constructor
  · rintro ⟨⟨n, h1, h2, rfl⟩, h3⟩
    exact ⟨n, h1, h2, ENode.stop.inj h3, rfl⟩
  · rintro ⟨n, h1, h2, rfl, rfl⟩
    exact ⟨⟨n, h1, h2, rfl⟩, rfl⟩

/-- the boarding edge of the whole line -/
def wholeEdge (routes : List (Route K)) (whole : Route K → Route K) (f : Dict Str K) (e : EEdge K) : EEdge K :=
  match e.j with
  | .route n => boardEdge f (wholeNode routes whole n)
  | _ => e

namespace SplitLines

theorem nodeAt (h : SplitLines routes routes' f f' whole) {q : Route K} (hq : q ∈ routes') {d : Dir} {i : Nat} {id : Int} :
    q.NodeAt d i id ↔ (whole q).NodeAt d i id := by
  conv_lhs => rw [h.same q hq]
  rfl

theorem mode (h : SplitLines routes routes' f f' whole) {q : Route K} (hq : q ∈ routes') : q.mode = (whole q).mode := by
  conv_lhs => rw [h.same q hq]

theorem type (h : SplitLines routes routes' f f' whole) {q : Route K} (hq : q ∈ routes') : q.type = (whole q).type := by
  conv_lhs => rw [h.same q hq]

theorem nodesOf (h : SplitLines routes routes' f f' whole) {q : Route K} (hq : q ∈ routes') (d : Dir) :
    q.nodesOf d = (whole q).nodesOf d := by
  conv_lhs => rw [h.same q hq]
  rfl

theorem stopBefore (h : SplitLines routes routes' f f' whole) {q : Route K} (hq : q ∈ routes') (d : Dir) (i : Nat) :
    q.stopBefore d i = (whole q).stopBefore d i := by
  conv_lhs => rw [h.same q hq]
  rfl

theorem wanted_whole (h : SplitLines routes routes' f f' whole) {n : RouteNode K} (hn : n.Wanted g routes') :
    (wholeNode routes whole n).Wanted g routes := by
  have hq := List.mem_of_getElem? hn.1
  exact ⟨List.getElem?_idxOf (h.known _ hq), (h.nodeAt hq).1 hn.2.1, by
    simp only [wholeNode]; rw [hn.2.2.1, h.mode hq], hn.2.2.2⟩

theorem wanted_part (h : SplitLines routes routes' f f' whole) {n : RouteNode K} (hn : n.Wanted g routes) {q : Route K}
    (hq : q ∈ routes') (hqn : whole q = n.route) : (partNode routes' q n).Wanted g routes' :=
  ⟨List.getElem?_idxOf hq, (h.nodeAt hq).2 (by rw [hqn]; exact hn.2.1), by
    simp only [partNode]; rw [hn.2.2.1, h.mode hq, hqn], hn.2.2.2⟩

theorem canBoard (h : SplitLines routes routes' f f' whole) {n : RouteNode K} (hq : n.route ∈ routes') :
    n.CanBoard ↔ (wholeNode routes whole n).CanBoard := by
  unfold RouteNode.CanBoard wholeNode
  simp only
  rw [h.type hq, h.nodesOf hq]

theorem canAlight (h : SplitLines routes routes' f f' whole) {n : RouteNode K} (hq : n.route ∈ routes') :
    n.CanAlight ↔ (wholeNode routes whole n).CanAlight := by
  unfold RouteNode.CanAlight wholeNode
  simp only
  rw [h.type hq, h.nodesOf hq]

theorem stop_wanted (h : SplitLines routes routes' f f' whole) {s : StopNode K} :
    s.Wanted g routes' ↔ s.Wanted g routes := by
  constructor
  · rintro ⟨h1, q, hq, hm, d, i, hi⟩
    exact ⟨h1, whole q, h.known q hq, by rw [← h.mode hq, hm], d, i, (h.nodeAt hq).1 hi⟩
  · rintro ⟨h1, r, hr, hm, d, i, hi⟩
    obtain ⟨q, hq, rfl⟩ := h.parts r hr
    exact ⟨h1, q, hq, by rw [h.mode hq, hm], d, i, (h.nodeAt hq).2 hi⟩

theorem idx_wanted (hids : (routes.map Route.id).Nodup) {n : RouteNode K} (hn : n.Wanted g routes) :
    routes.idxOf n.route = n.ridx := by
  obtain ⟨k, e⟩ := List.getElem?_eq_some_iff.1 hn.1
  rw [← e]
  exact (List.Nodup.of_map _ hids).idxOf_getElem _ _

/-- the node of a part of a line is one of the whole line -/
theorem whole_part (h : SplitLines routes routes' f f' whole) {n : RouteNode K} (hn : n.Wanted g routes) {q : Route K}
    (hqn : whole q = n.route) : wholeNode routes whole (partNode routes' q n) = n := by
  have := idx_wanted h.ids hn
  cases n
  simp only [wholeNode, partNode] at *
  rw [hqn, this]

theorem part_whole (h : SplitLines routes routes' f f' whole) {n : RouteNode K} (hn : n.Wanted g routes') :
    partNode routes' n.route (wholeNode routes whole n) = n := by
  have := idx_wanted h.ids' hn
  cases n
  simp only [wholeNode, partNode] at *
  rw [this]

theorem leg (h : SplitLines routes routes' f f' whole) (hg : DistinctIds g) (hx : buildExtGraph g routes sPTP freq = .ok x)
    (hx' : buildExtGraph g routes' sPTP freq' = .ok x') (p : RouteNode K) {n : RouteNode K} (hn : n.route ∈ routes') :
    legDistance (x.nodes.map fun p => p.1.node) (wholeNode routes whole p) (wholeNode routes whole n) =
      legDistance (x'.nodes.map fun p => p.1.node) p n := by
  unfold legDistance
  simp only [wholeNode]
  rw [h.nodesOf hn]
  refine legLoop_congr _ ?_ _ _ _
  intro id _
  rw [find_served hg hx', find_served hg hx]
  refine List.find?_congr fun m _ => ?_
  rw [decide_eq_decide]
  refine and_congr_right fun _ => exists_congr fun s => ?_
  rw [h.stop_wanted]

/-- boarding the parts of the lines at a stop is as boarding the lines -/
theorem sum_boarding (h : SplitLines routes routes' (frequencies routes freq) (frequencies routes' freq') whole)
    (hg : DistinctIds g) (hx : buildExtGraph g routes sPTP freq = .ok x)
    (hx' : buildExtGraph g routes' sPTP freq' = .ok x') (s : StopNode K) (G : EEdge K → K) :
    ∑ b ∈ boardEdges x'.edges s, lineFreq b * G (wholeEdge routes whole (frequencies routes freq) b) =
      ∑ b ∈ boardEdges x.edges s, lineFreq b * G b := by
  rw [← Finset.sum_fiberwise_of_maps_to (s := boardEdges x'.edges s) (t := boardEdges x.edges s)
    (g := wholeEdge routes whole (frequencies routes freq))]
  · refine Finset.sum_congr rfl fun b hb => ?_
    have h1 : ∀ b' ∈ (boardEdges x'.edges s).filter (fun b' => wholeEdge routes whole (frequencies routes freq) b' = b),
        lineFreq b' * G (wholeEdge routes whole (frequencies routes freq) b') = lineFreq b' * G b := by
      intro b' hb'
      rw [(Finset.mem_filter.1 hb').2]
    rw [Finset.sum_congr rfl h1, ← Finset.sum_mul]
    congr 1
    obtain ⟨n, hn, hc, hs, rfl⟩ := (mem_boardEdges_ext hg hx).1 hb
    have hnd : (routes'.filter fun q => decide (whole q = n.route)).Nodup := (List.Nodup.of_map _ h.ids').filter _
    have hf : lineFreq (boardEdge (frequencies routes freq) n) =
        ∑ q ∈ (routes'.filter fun q => decide (whole q = n.route)).toFinset,
          (frequencies routes' freq').getD q.id 0 / (n.route.mode.d : K) := by
      rw [lineFreq, boardEdge, Option.getD_some, h.freqs _ (List.mem_of_getElem? hn.1), ← List.sum_toFinset _ hnd,
        Finset.sum_div]
    rw [hf]
    symm
    refine Finset.sum_bij (fun q _ => boardEdge (frequencies routes' freq') (partNode routes' q n)) ?_ ?_ ?_ ?_
    · intro q hq
      obtain ⟨hq1, hq2⟩ := List.mem_filter.1 (List.mem_toFinset.1 hq)
      have hq2 := of_decide_eq_true hq2
      rw [Finset.mem_filter, mem_boardEdges_ext hg hx']
      refine ⟨⟨_, h.wanted_part hn hq1 hq2, ?_, hs, rfl⟩, ?_⟩
      · rw [h.canBoard (n := partNode routes' q n) hq1, h.whole_part hn hq2]
        exact hc
      · simp only [wholeEdge, boardEdge]
        rw [h.whole_part hn hq2]
    · intro q _ q' _ heq
      simp only [boardEdge, EEdge.mk.injEq, ENode.route.injEq, partNode, RouteNode.mk.injEq] at heq
      exact heq.2.1.2.1
    · intro b' hb'
      rw [Finset.mem_filter, mem_boardEdges_ext hg hx'] at hb'
      obtain ⟨⟨n', hn', _, _, rfl⟩, heq⟩ := hb'
      simp only [wholeEdge, boardEdge, EEdge.mk.injEq, ENode.route.injEq] at heq
      have hw := heq.2.1
      have hmem := List.mem_of_getElem? hn'.1
      refine ⟨n'.route, ?_, ?_⟩
      · rw [List.mem_toFinset, List.mem_filter, ← hw]
        exact ⟨hmem, by simp [wholeNode]⟩
      · rw [← hw, h.part_whole hn']
    · intro q hq
      obtain ⟨hq1, hq2⟩ := List.mem_filter.1 (List.mem_toFinset.1 hq)
      simp only [lineFreq, boardEdge, partNode, Option.getD_some]
      rw [h.mode hq1, of_decide_eq_true hq2]
  · intro b' hb'
    obtain ⟨n', hn', hc, hs, rfl⟩ := (mem_boardEdges_ext hg hx').1 hb'
    exact (mem_boardEdges_ext hg hx).2 ⟨_, h.wanted_whole hn', (h.canBoard (List.mem_of_getElem? hn'.1)).1 hc, hs, rfl⟩

end SplitLines

/-- what is gained by boarding makes up for waiting, so there is a strategy that takes no longer than `V` -/
theorem wait_from_all {edges : List (EEdge K)} {o d : Option (CityNode K)} {s : StopNode K} {V : K} (cost : EEdge K → K)
    (hfreq : ∀ b ∈ boardEdges edges s, 0 ≤ lineFreq b)
    (hc : ∀ b ∈ boardEdges edges s, legTime pas d b + cost b < V → ∃ c ≤ cost b, Strategy edges pas o d b.j c)
    (hw : 0 < waitCost pas s)
    (hsum : waitCost pas s ≤ ∑ b ∈ boardEdges edges s, lineFreq b * max (V - (legTime pas d b + cost b)) 0) :
    ∃ c ≤ V, Strategy edges pas o d (.stop s) c := by
  set T := ((boardEdges edges s).filter fun b => 0 < lineFreq b ∧ legTime pas d b + cost b < V) with hT
  have hmem : ∀ b ∈ T, b ∈ boardEdges edges s ∧ 0 < lineFreq b ∧ legTime pas d b + cost b < V := fun b hb =>
    Finset.mem_filter.1 hb
  have hc' : ∀ b ∈ T, ∃ c ≤ cost b, Strategy edges pas o d b.j c := fun b hb =>
    hc b (hmem b hb).1 (hmem b hb).2.2
  choose! c hle hstr using hc'
  have hsumT : waitCost pas s ≤ ∑ b ∈ T, lineFreq b * (V - (legTime pas d b + c b)) := by
    refine hsum.trans ?_
    rw [← Finset.sum_filter_add_sum_filter_not (boardEdges edges s)
      (fun b => 0 < lineFreq b ∧ legTime pas d b + cost b < V)]
    have h0 : ∑ b ∈ (boardEdges edges s).filter (fun b => ¬ (0 < lineFreq b ∧ legTime pas d b + cost b < V)),
        lineFreq b * max (V - (legTime pas d b + cost b)) 0 = 0 := by
      refine Finset.sum_eq_zero fun b hb => ?_
      obtain ⟨hb1, hb2⟩ := Finset.mem_filter.1 hb
      rcases (hfreq b hb1).lt_or_eq with hp | hz
      · have : ¬ legTime pas d b + cost b < V := fun hlt => hb2 ⟨hp, hlt⟩
        rw [max_eq_right (by linarith), mul_zero]
      · rw [← hz, zero_mul]
    rw [h0, add_zero]
    refine Finset.sum_le_sum fun b hb => ?_
    obtain ⟨_, h2, h3⟩ := hmem b hb
    refine mul_le_mul_of_nonneg_left ?_ h2.le
    rw [max_eq_left (by linarith)]
    linarith [hle b hb]
  have hne : T.toList ≠ [] := by
    intro h
    rw [Finset.toList_eq_nil] at h
    rw [h, Finset.sum_empty] at hsumT
    linarith
  have key := Strategy.wait (edges := edges) (pas := pas) (origin := o) (dest := d) s
    (T.toList.map fun b => (b, c b)) (by simpa using hne) ?_ ?_ ?_
  · refine ⟨_, ?_, key⟩
    rw [List.map_map, List.map_map]
    have hp : 0 < (T.toList.map fun b => lineFreq b).sum := by
      refine List.sum_pos _ ?_ (by simpa using hne)
      intro y hy
      obtain ⟨b, hb, rfl⟩ := List.mem_map.1 hy
      exact (hmem b (Finset.mem_toList.1 hb)).2.1
    have e1 : (T.toList.map ((fun p : EEdge K × K => lineFreq p.1) ∘ fun b => (b, c b))).sum = ∑ b ∈ T, lineFreq b :=
      Finset.sum_map_toList T _
    have e2 : (T.toList.map ((fun p : EEdge K × K => lineFreq p.1 * (legTime pas d p.1 + p.2)) ∘ fun b => (b, c b))).sum =
        ∑ b ∈ T, lineFreq b * (legTime pas d b + c b) := Finset.sum_map_toList T _
    rw [Finset.sum_map_toList T] at hp
    rw [e1, e2, div_le_iff₀ hp]
    have : ∑ b ∈ T, lineFreq b * (V - (legTime pas d b + c b)) =
        V * ∑ b ∈ T, lineFreq b - ∑ b ∈ T, lineFreq b * (legTime pas d b + c b) := by
      rw [Finset.mul_sum, ← Finset.sum_sub_distrib]
      exact Finset.sum_congr rfl fun b _ => by ring
    linarith
  · rw [List.map_map]
    simpa [Function.comp_def] using T.nodup_toList
  · intro p hp
    obtain ⟨b, hb, rfl⟩ := List.mem_map.1 hp
    have hb := Finset.mem_toList.1 hb
    obtain ⟨h1, h2, h3⟩ := mem_boardEdges.1 (hmem b hb).1
    exact ⟨h1, h2, h3, (hmem b hb).2.1⟩
  · intro p hp
    obtain ⟨b, hb, rfl⟩ := List.mem_map.1 hp
    exact hstr b (Finset.mem_toList.1 hb)

/-- waiting is made up for by what is gained over the mean -/
theorem wait_balance {d : Option (CityNode K)} {w : K} (l : List (EEdge K × K)) (hne : l ≠ [])
    (hpos : ∀ p ∈ l, 0 < lineFreq p.1) {V : K}
    (hV : V = (w + (l.map fun p => lineFreq p.1 * (legTime pas d p.1 + p.2)).sum) / (l.map fun p => lineFreq p.1).sum) :
    w = (l.map fun p => lineFreq p.1 * (V - (legTime pas d p.1 + p.2))).sum := by
  have hp : 0 < (l.map fun p => lineFreq p.1).sum := by
    refine List.sum_pos _ ?_ (by simpa using hne)
    intro y hy
    obtain ⟨b, hb, rfl⟩ := List.mem_map.1 hy
    exact hpos b hb
  rw [eq_div_iff hp.ne'] at hV
  have : ∀ m : List (EEdge K × K), (m.map fun p => lineFreq p.1 * (V - (legTime pas d p.1 + p.2))).sum =
      V * (m.map fun p => lineFreq p.1).sum - (m.map fun p => lineFreq p.1 * (legTime pas d p.1 + p.2)).sum := by
    intro m
    induction m with
    | nil => simp
    | cons a t ih => simp only [List.map_cons, List.sum_cons, ih]; ring
  rw [this, hV]
  ring

theorem legTime_board {d : Option (CityNode K)} (n : RouteNode K) : legTime pas d (boardEdge f n) = 0 := rfl

theorem wholeENode_origin {o : Option (CityNode K)} {n : ENode K} :
    some (wholeENode routes whole n) ≠ o.map ENode.city ↔ some n ≠ o.map ENode.city := by
  cases n <;> cases o <;> simp [wholeENode]

namespace SplitLines

/-- a strategy with the parts of the lines gives one with the lines -/
theorem merge (h : SplitLines routes routes' (frequencies routes freq) (frequencies routes' freq') whole)
    (hg : DistinctIds g) (ha : Admissible routes sPTP freq pas) (ha' : Admissible routes' sPTP freq' pas)
    (hx : buildExtGraph g routes sPTP freq = .ok x) (hx' : buildExtGraph g routes' sPTP freq' = .ok x')
    {o d : Option (CityNode K)} {r : HResult K} (hr : buildHyperpath ⟨x.nodes, x.edges, pas, o, d⟩ = .ok r)
    {n : ENode K} {c : K} (hs : Strategy x'.edges pas o d n c) :
    ∃ c' ≤ c, Strategy x.edges pas o d (wholeENode routes whole n) c' := by
  have hse := ha.searchable hx
  have hse' := ha'.searchable hx'
  induction hs with
  | arrive k hd => exact ⟨0, le_rfl, .arrive k hd⟩
  | go e he hb hio hjo c hc ih =>
    obtain ⟨c', hle, hs'⟩ := ih
    cases hty : e.type with
    | boarding => exact absurd hty hb
    | access =>
      obtain ⟨s, hsw, rfl | rfl⟩ := ((C35_edges hg hx' e).1).1 ⟨he, hty⟩
      · exact ⟨_, add_le_add_right hle _, .go _ (((C35_edges hg hx _).1).2 ⟨s, h.stop_wanted.1 hsw, Or.inl rfl⟩).1 hb hio
          hjo c' hs'⟩
      · exact ⟨_, add_le_add_right hle _, .go _ (((C35_edges hg hx _).1).2 ⟨s, h.stop_wanted.1 hsw, Or.inr rfl⟩).1 hb hio
          hjo c' hs'⟩
    | alighting =>
      obtain ⟨n, hn, hcn, rfl⟩ := ((C35_edges hg hx' e).2.2).1 ⟨he, hty⟩
      exact ⟨_, add_le_add_right hle _, .go _ (((C35_edges hg hx _).2.2).2 ⟨_, h.wanted_whole hn,
        (h.canAlight (List.mem_of_getElem? hn.1)).1 hcn, rfl⟩).1 hb (wholeENode_origin.2 hio) hjo c' hs'⟩
    | route =>
      obtain ⟨p, n, hp, hn, hpn, rfl⟩ := (mem_route_edges hg hx' e).1 ⟨he, hty⟩
      have hpr : p.route = n.route := by
        have h1 := hp.1
        rw [hpn.1, hn.1] at h1
        exact (Option.some.inj h1).symm
      have hnr := List.mem_of_getElem? hn.1
      have hin := ((mem_route_edges hg hx _).2 ⟨_, _, h.wanted_whole hp, h.wanted_whole hn,
        ⟨by simp only [wholeNode, hpr], hpn.2.1, by
          simp only [wholeNode]; rw [← h.stopBefore hnr]; exact hpn.2.2⟩, rfl⟩).1
      rw [h.leg hg hx hx' p hnr] at hin
      exact ⟨_, add_le_add_right hle _, .go _ hin hb (wholeENode_origin.2 hio) (wholeENode_origin.2 hjo) c' hs'⟩
  | wait s l hne hnd hl hs' ih =>
    set V := (waitCost pas s + (l.map fun p => lineFreq p.1 * (legTime pas d p.1 + p.2)).sum) / (l.map fun p => lineFreq p.1).sum
      with hV
    have hw := wait_balance l hne (fun p hp => (hl p hp).2.2.2) hV
    have hwait : 0 < waitCost pas s := by
      obtain ⟨p, hp⟩ := List.exists_mem_of_ne_nil _ hne
      obtain ⟨_, _, s', h1, hth⟩ := hse'.board p.1 (hl p hp).1 (hl p hp).2.1
      rw [(hl p hp).2.2.1] at h1
      cases h1
      exact div_pos (mul_pos hth ha.pw) ha.pv
    refine wait_from_all (fun b => (r.label b.j).untopD V)
      (fun b hb => (hse.board b (mem_boardEdges.1 hb).1 (mem_boardEdges.1 hb).2.1).2.1) ?_ hwait ?_
    · intro b hb hlt
      have hb' := hb
      obtain ⟨n, hn, hcb, hns, rfl⟩ := (mem_boardEdges_ext hg hx).1 hb
      rw [legTime_board, zero_add] at hlt
      have hfin : r.label (boardEdge (frequencies routes freq) n).j ≠ ⊤ := by
        intro htop
        rw [htop, WithTop.untopD_top] at hlt
        exact lt_irrefl _ hlt
      obtain ⟨c, hc, hlab⟩ := C38_attained ha hx hr (hse.ends _ (mem_boardEdges.1 hb').1).2 hfin
      refine ⟨c, ?_, hc⟩
      rw [hlab, WithTop.untopD_coe]
      simp [boardEdge, accessTime]
    · rw [← h.sum_boarding hg hx hx' s fun b => max (V - (legTime pas d b + (r.label b.j).untopD V)) 0]
      calc waitCost pas s = (l.map fun p => lineFreq p.1 * (V - (legTime pas d p.1 + p.2))).sum := hw
        _ ≤ ((l.map Prod.fst).map fun b => lineFreq b * max (V - (legTime pas d (wholeEdge routes whole
              (frequencies routes freq) b) + (r.label (wholeEdge routes whole (frequencies routes freq) b).j).untopD V)) 0).sum := by
            rw [List.map_map]
            refine List.sum_le_sum fun p hp => ?_
            obtain ⟨h1, h2, h3, h4⟩ := hl p hp
            refine mul_le_mul_of_nonneg_left ((le_max_left _ _).trans' ?_) h4.le
            obtain ⟨n, hn, hcb, hns, he⟩ := (mem_boardEdges_ext hg hx').1 (mem_boardEdges.2 ⟨h1, h2, h3⟩)
            obtain ⟨c', hle, hst⟩ := ih p hp
            have hopt := C39_optimal ha hx hr hst
            rw [he] at hopt ⊢
            simp only [wholeEdge, boardEdge, wholeENode, accessTime, add_zero] at hopt ⊢
            obtain ⟨v, hv⟩ := WithTop.ne_top_iff_exists.1 (ne_top_of_le_ne_top WithTop.coe_ne_top hopt)
            rw [← hv, WithTop.coe_le_coe] at hopt
            rw [← hv, WithTop.untopD_coe]
            have e1 : legTime pas d (⟨.stop (wholeNode routes whole n).stop, .route (wholeNode routes whole n), 0,
              some ((frequencies routes freq).getD (wholeNode routes whole n).route.id 0 /
                ((wholeNode routes whole n).route.mode.d : K)), .boarding⟩ : EEdge K) = 0 := rfl
            have e2 : legTime pas d (⟨.stop n.stop, .route n, 0, some ((frequencies routes' freq').getD n.route.id 0 /
              (n.route.mode.d : K)), .boarding⟩ : EEdge K) = 0 := rfl
            rw [e1, e2]
            linarith
        _ = ∑ b ∈ (l.map Prod.fst).toFinset, lineFreq b * max (V - (legTime pas d (wholeEdge routes whole
              (frequencies routes freq) b) + (r.label (wholeEdge routes whole (frequencies routes freq) b).j).untopD V)) 0 :=
            (List.sum_toFinset _ hnd).symm
        _ ≤ _ := by
            refine Finset.sum_le_sum_of_subset_of_nonneg ?_ ?_
            · intro b hb
              obtain ⟨p, hp, rfl⟩ := List.mem_map.1 (List.mem_toFinset.1 hb)
              exact mem_boardEdges.2 ⟨(hl p hp).1, (hl p hp).2.1, (hl p hp).2.2.1⟩
            · intro b hb _
              exact mul_nonneg (hse'.board b (mem_boardEdges.1 hb).1 (mem_boardEdges.1 hb).2.1).2.1 (le_max_right _ _)

/-- a strategy with the lines gives one with their parts -/
theorem spread (h : SplitLines routes routes' (frequencies routes freq) (frequencies routes' freq') whole)
    (hg : DistinctIds g) (ha' : Admissible routes' sPTP freq' pas) (ha : Admissible routes sPTP freq pas)
    (hx : buildExtGraph g routes sPTP freq = .ok x) (hx' : buildExtGraph g routes' sPTP freq' = .ok x')
    {o d : Option (CityNode K)} {n : ENode K} {c : K} (hs : Strategy x.edges pas o d n c) :
    ∀ n', wholeENode routes whole n' = n → (∀ m, n' = .route m → m.Wanted g routes') →
      ∃ c' ≤ c, Strategy x'.edges pas o d n' c' := by
  have hse := ha.searchable hx
  have hse' := ha'.searchable hx'
  have hcity : ∀ {n' k}, wholeENode routes whole n' = ENode.city k → n' = .city k := by
    intro n' k heq
    cases n' <;> simp_all [wholeENode]
  have hstop : ∀ {n' k}, wholeENode routes whole n' = ENode.stop k → n' = .stop k := by
    intro n' k heq
    cases n' <;> simp_all [wholeENode]
  have hroute : ∀ {n' k}, wholeENode routes whole n' = ENode.route k → ∃ m, n' = .route m ∧ wholeNode routes whole m = k := by
    intro n' k heq
    cases n' <;> simp_all [wholeENode]
  induction hs with
  | arrive k hd =>
    intro n' hn' _
    rw [hcity hn']
    exact ⟨0, le_rfl, .arrive k hd⟩
  | go e he hb hio hjo c hc ih =>
    intro n' hn' hwn
    cases hty : e.type with
    | boarding => exact absurd hty hb
    | access =>
      obtain ⟨s, hsw, rfl | rfl⟩ := ((C35_edges hg hx e).1).1 ⟨he, hty⟩
      · obtain ⟨c', hle, hs'⟩ := ih (.stop s) rfl (by simp)
        rw [hcity hn']
        exact ⟨_, add_le_add_right hle _, .go _ (((C35_edges hg hx' _).1).2 ⟨s, h.stop_wanted.2 hsw, Or.inl rfl⟩).1 hb hio
          hjo c' hs'⟩
      · obtain ⟨c', hle, hs'⟩ := ih (.city s.city) rfl (by simp)
        rw [hstop hn']
        exact ⟨_, add_le_add_right hle _, .go _ (((C35_edges hg hx' _).1).2 ⟨s, h.stop_wanted.2 hsw, Or.inr rfl⟩).1 hb hio
          hjo c' hs'⟩
    | alighting =>
      obtain ⟨n, hn, hcn, rfl⟩ := ((C35_edges hg hx e).2.2).1 ⟨he, hty⟩
      obtain ⟨c', hle, hs'⟩ := ih (.stop n.stop) rfl (by simp)
      obtain ⟨m, rfl, rfl⟩ := hroute hn'
      have hm := hwn m rfl
      exact ⟨_, add_le_add_right hle _, .go _ (((C35_edges hg hx' _).2.2).2 ⟨m, hm,
        (h.canAlight (List.mem_of_getElem? hm.1)).2 hcn, rfl⟩).1 hb (wholeENode_origin.1 hio) hjo c' hs'⟩
    | route =>
      obtain ⟨p, n, hp, hn, hpn, rfl⟩ := (mem_route_edges hg hx e).1 ⟨he, hty⟩
      obtain ⟨m, rfl, rfl⟩ := hroute hn'
      have hm := hwn m rfl
      have hmr := List.mem_of_getElem? hm.1
      have hpr : whole m.route = n.route := by
        have h1 := hp.1
        rw [hpn.1, hn.1] at h1
        exact (Option.some.inj h1).symm
      have hnw := h.wanted_part hn hmr hpr
      have hback := h.whole_part hn hpr
      obtain ⟨c', hle, hs'⟩ := ih (.route (partNode routes' m.route n)) (by simp only [wholeENode]; rw [hback])
        (by intro k hk; cases hk; exact hnw)
      have hin := ((mem_route_edges hg hx' _).2 ⟨m, _, hm, hnw, ⟨(idx_wanted h.ids' hm).symm, hpn.2.1, by
        simp only [partNode]; rw [h.stopBefore hmr, hpr]; exact hpn.2.2⟩, rfl⟩).1
      rw [← h.leg hg hx hx' m (n := partNode routes' m.route n) hmr, hback] at hin
      exact ⟨_, add_le_add_right hle _, .go _ hin hb (wholeENode_origin.1 hio) (by cases o <;> simp) c' hs'⟩
  | wait s l hne hnd hl hs' ih =>
    intro n' hn' _
    rw [hstop hn']
    set V := (waitCost pas s + (l.map fun p => lineFreq p.1 * (legTime pas d p.1 + p.2)).sum) / (l.map fun p => lineFreq p.1).sum
      with hV
    have hw := wait_balance l hne (fun p hp => (hl p hp).2.2.2) hV
    have hwait : 0 < waitCost pas s := by
      obtain ⟨p, hp⟩ := List.exists_mem_of_ne_nil _ hne
      obtain ⟨_, _, s', h1, hth⟩ := hse.board p.1 (hl p hp).1 (hl p hp).2.1
      rw [(hl p hp).2.2.1] at h1
      cases h1
      exact div_pos (mul_pos hth ha.pw) ha.pv
    have hcb : ∀ b ∈ l.map Prod.fst, ∃ v, (b, v) ∈ l := by
      intro b hb
      obtain ⟨p, hp, rfl⟩ := List.mem_map.1 hb
      exact ⟨p.2, hp⟩
    choose! cb hcb using hcb
    have hcb2 : ∀ p ∈ l, cb p.1 = p.2 := by
      intro p hp
      have h1 := hcb p.1 (List.mem_map.2 ⟨p, hp, rfl⟩)
      have := List.inj_on_of_nodup_map hnd h1 hp rfl
      rw [← this]
    let ρ := wholeEdge routes whole (frequencies routes freq)
    let G : EEdge K → K := fun b => if b ∈ l.map Prod.fst then max (V - (legTime pas d b + cb b)) 0 else 0
    refine wait_from_all (fun b => if ρ b ∈ l.map Prod.fst then cb (ρ b) else V)
      (fun b hb => (hse'.board b (mem_boardEdges.1 hb).1 (mem_boardEdges.1 hb).2.1).2.1) ?_ hwait ?_
    · intro b hb hlt
      obtain ⟨n, hn, hcn, hns, rfl⟩ := (mem_boardEdges_ext hg hx').1 hb
      rw [legTime_board, zero_add] at hlt
      split_ifs at hlt ⊢ with hin
      · have := ih _ (hcb _ hin) (.route n) rfl (by intro k hk; cases hk; exact hn)
        exact this
      · exact absurd hlt (lt_irrefl _)
    · calc waitCost pas s = (l.map fun p => lineFreq p.1 * (V - (legTime pas d p.1 + p.2))).sum := hw
        _ ≤ ((l.map Prod.fst).map fun b => lineFreq b * G b).sum := by
            rw [List.map_map]
            refine List.sum_le_sum fun p hp => ?_
            have hmem : p.1 ∈ l.map Prod.fst := List.mem_map.2 ⟨p, hp, rfl⟩
            refine mul_le_mul_of_nonneg_left ?_ (hl p hp).2.2.2.le
            simp only [G, if_pos hmem, hcb2 p hp]
            exact le_max_left _ _
        _ = ∑ b ∈ (l.map Prod.fst).toFinset, lineFreq b * G b := (List.sum_toFinset _ hnd).symm
        _ ≤ ∑ b ∈ boardEdges x.edges s, lineFreq b * G b := by
            refine Finset.sum_le_sum_of_subset_of_nonneg ?_ ?_
            · intro b hb
              obtain ⟨p, hp, rfl⟩ := List.mem_map.1 (List.mem_toFinset.1 hb)
              exact mem_boardEdges.2 ⟨(hl p hp).1, (hl p hp).2.1, (hl p hp).2.2.1⟩
            · intro b hb _
              refine mul_nonneg (hse.board b (mem_boardEdges.1 hb).1 (mem_boardEdges.1 hb).2.1).2.1 ?_
              simp only [G]
              split_ifs
              · exact le_max_right _ _
              · exact le_rfl
        _ = ∑ b ∈ boardEdges x'.edges s, lineFreq b * G (ρ b) := (h.sum_boarding hg hx hx' s G).symm
        _ = _ := by
            refine Finset.sum_congr rfl fun b hb => ?_
            obtain ⟨n, hn, hcn, hns, rfl⟩ := (mem_boardEdges_ext hg hx').1 hb
            have e1 : legTime pas d (ρ (boardEdge (frequencies routes' freq') n)) = 0 := rfl
            simp only [G]
            rw [e1, legTime_board]
            split_ifs
            · rfl
            · rw [zero_add, sub_self, max_self]

/-- a sum over the parts, each with its share of the vehicles -/
theorem sum (h : SplitLines routes routes' f f' whole) (v : Route K → K) :
    (routes'.map fun q => f'.getD q.id 0 * v (whole q)).sum = (routes.map fun r => f.getD r.id 0 * v r).sum := by
  have hnd := List.Nodup.of_map _ h.ids
  have hnd' := List.Nodup.of_map _ h.ids'
  rw [← List.sum_toFinset _ hnd, ← List.sum_toFinset _ hnd',
    ← Finset.sum_fiberwise_of_maps_to (s := routes'.toFinset) (t := routes.toFinset) (g := whole)]
  · refine Finset.sum_congr rfl fun r hr => ?_
    have h1 : ∀ q ∈ routes'.toFinset.filter (fun q => whole q = r), f'.getD q.id 0 * v (whole q) = f'.getD q.id 0 * v r := by
      intro q hq
      rw [(Finset.mem_filter.1 hq).2]
    rw [Finset.sum_congr rfl h1, ← Finset.sum_mul, h.freqs r (List.mem_toFinset.1 hr), ← List.sum_toFinset _ (hnd'.filter _),
      List.toFinset_filter]
    congr 1
    simp only [decide_eq_true_eq]
  · intro q hq
    exact List.mem_toFinset.2 (h.known q (List.mem_toFinset.1 hq))

/-- a line runs exactly when one of its parts does -/
theorem runs_iff (h : SplitLines routes routes' f f' whole) (hf : ∀ q ∈ routes', 0 ≤ f'.getD q.id 0) {r : Route K}
    (hr : r ∈ routes) : 0 < f.getD r.id 0 ↔ ∃ q ∈ routes', whole q = r ∧ 0 < f'.getD q.id 0 := by
  rw [h.freqs r hr]
  have hnn : ∀ y ∈ (routes'.filter fun q => decide (whole q = r)).map (fun q => f'.getD q.id 0), 0 ≤ y := by
    intro y hy
    obtain ⟨q, hq, rfl⟩ := List.mem_map.1 hy
    exact hf q (List.mem_filter.1 hq).1
  constructor
  · intro hpos
    by_contra hno
    refine hpos.ne' (List.sum_eq_zero fun y hy => ?_)
    obtain ⟨q, hq, rfl⟩ := List.mem_map.1 hy
    obtain ⟨h1, h2⟩ := List.mem_filter.1 hq
    exact le_antisymm (not_lt.1 fun hlt => hno ⟨q, h1, of_decide_eq_true h2, hlt⟩) (hf q h1)
  · rintro ⟨q, hq, hw, hpos⟩
    refine hpos.trans_le (List.single_le_sum hnn _ (List.mem_map.2 ⟨q, ?_, rfl⟩))
    exact List.mem_filter.2 ⟨hq, decide_eq_true hw⟩

end SplitLines

/-- C94, trips: when lines are split into parallel lines that share their vehicles, the stops are the same and every label is
the same, also on board of each part. -/
theorem C94_trips (hg : DistinctIds g) (ha : Admissible routes sPTP freq pas) (ha' : Admissible routes' sPTP freq' pas)
    (hx : buildExtGraph g routes sPTP freq = .ok x) (hx' : buildExtGraph g routes' sPTP freq' = .ok x')
    (h : SplitLines routes routes' (frequencies routes freq) (frequencies routes' freq') whole)
    {o d : Option (CityNode K)} {r r' : HResult K} (hr : buildHyperpath ⟨x.nodes, x.edges, pas, o, d⟩ = .ok r)
    (hr' : buildHyperpath ⟨x'.nodes, x'.edges, pas, o, d⟩ = .ok r') :
    (∀ s, s ∈ stopsOf x'.nodes ↔ s ∈ stopsOf x.nodes) ∧
    (∀ c, c ∈ Dict.keys x'.nodes ↔ c ∈ Dict.keys x.nodes) ∧
    (∀ s ∈ stopsOf x.nodes, r'.label (.stop s) = r.label (.stop s)) ∧
    (∀ c ∈ Dict.keys x.nodes, r'.label (.city c) = r.label (.city c)) ∧
    (∀ n : RouteNode K, n.Wanted g routes' → r'.label (.route n) = r.label (.route (wholeNode routes whole n))) := by
  obtain ⟨_, hst, _, hci, _⟩ := C34_stop_nodes hg hx
  obtain ⟨_, hst', _, hci', _⟩ := C34_stop_nodes hg hx'
  have hs1 : ∀ s, s ∈ stopsOf x'.nodes ↔ s ∈ stopsOf x.nodes := fun s => by rw [hst, hst', h.stop_wanted]
  have hc1 : ∀ c, c ∈ Dict.keys x'.nodes ↔ c ∈ Dict.keys x.nodes := fun c => by
    rw [hci, hci']
    simp only [h.stop_wanted]
  have key : ∀ n', n' ∈ allNodes x'.nodes → wholeENode routes whole n' ∈ allNodes x.nodes →
      accessTime pas o (wholeENode routes whole n') = accessTime pas o n' → (∀ m, n' = .route m → m.Wanted g routes') →
      r'.label n' = r.label (wholeENode routes whole n') := by
    intro n' hn' hn hac hm
    apply le_antisymm
    · by_cases hfin : r.label (wholeENode routes whole n') = ⊤
      · rw [hfin]; exact le_top
      obtain ⟨c, hc, hl⟩ := C38_attained ha hx hr hn hfin
      obtain ⟨c', hle, hs'⟩ := h.spread hg ha' ha hx hx' hc n' rfl hm
      refine (C39_optimal ha' hx' hr' hs').trans ?_
      rw [hl, WithTop.coe_le_coe, hac]
      exact add_le_add_left hle _
    · by_cases hfin : r'.label n' = ⊤
      · rw [hfin]; exact le_top
      obtain ⟨c, hc, hl⟩ := C38_attained ha' hx' hr' hn' hfin
      obtain ⟨c', hle, hs'⟩ := h.merge hg ha ha' hx hx' hr hc
      refine (C39_optimal ha hx hr hs').trans ?_
      rw [hl, WithTop.coe_le_coe, hac]
      exact add_le_add_left hle _
  refine ⟨hs1, hc1, fun s hs => ?_, fun c hc => ?_, fun n hn => ?_⟩
  · exact key (.stop s) ((mem_allNodes _).2 (Or.inr (Or.inl ⟨s, (hs1 s).2 hs, rfl⟩)))
      ((mem_allNodes _).2 (Or.inr (Or.inl ⟨s, hs, rfl⟩))) rfl (by simp)
  · exact key (.city c) ((mem_allNodes _).2 (Or.inl ⟨c, (hc1 c).2 hc, rfl⟩))
      ((mem_allNodes _).2 (Or.inl ⟨c, hc, rfl⟩)) rfl (by simp)
  · have e1 := ((C34_route_nodes hg hx').2.1 n).2 hn
    have e2 := ((C34_route_nodes hg hx).2.1 _).2 (h.wanted_whole hn)
    obtain ⟨m1, h1, h1'⟩ := List.mem_map.1 e1
    obtain ⟨m2, h2, h2'⟩ := List.mem_map.1 e2
    exact key (.route n) ((mem_allNodes _).2 (Or.inr (Or.inr ⟨m1, h1, by rw [h1']⟩)))
      ((mem_allNodes _).2 (Or.inr (Or.inr ⟨m2, h2, by rw [h2']; rfl⟩))) rfl (by intro m hm; cases hm; exact hn)

/-- C94, demand: the same demands are accepted. -/
theorem C94_accepted (hg : DistinctIds g) (ha : Admissible routes sPTP freq pas) (ha' : Admissible routes' sPTP freq' pas)
    (hx : buildExtGraph g routes sPTP freq = .ok x) (hx' : buildExtGraph g routes' sPTP freq' = .ok x')
    (h : SplitLines routes routes' (frequencies routes freq) (frequencies routes' freq') whole) (od : Dict Int (Dict Int K)) :
    networkValidator x'.nodes x'.edges pas od = .ok true ↔ networkValidator x.nodes x.edges pas od = .ok true := by
  rw [C68_validator hg ha hx, C68_validator hg ha' hx']
  have hrides : ∀ q ∈ routes', ∀ a b, q.Rides a b ↔ (whole q).Rides a b := by
    intro q hq a b
    conv_lhs => rw [h.same q hq]
    rfl
  have h1 : Ride routes' (runs routes' freq') = Ride routes (runs routes freq) := by
    funext a b
    simp only [Ride, eq_iff_iff, runs]
    constructor
    · rintro ⟨q, hq, h2, h3⟩
      exact ⟨whole q, h.known q hq, (h.runs_iff ha'.freqs (h.known q hq)).2 ⟨q, hq, rfl, h2⟩, (hrides q hq a b).1 h3⟩
    · rintro ⟨r, hr, h2, h3⟩
      obtain ⟨q, hq, rfl, h4⟩ := (h.runs_iff ha'.freqs hr).1 h2
      exact ⟨q, hq, h4, (hrides q hq a b).2 h3⟩
  have h2 : UsesMode routes' = UsesMode routes := by
    funext m
    simp only [UsesMode, eq_iff_iff]
    constructor
    · rintro ⟨q, hq, hm, d, i, id, hi⟩
      exact ⟨whole q, h.known q hq, by rw [← h.mode hq, hm], d, i, id, (h.nodeAt hq).1 hi⟩
    · rintro ⟨r, hr, hm, d, i, id, hi⟩
      obtain ⟨q, hq, rfl⟩ := h.parts r hr
      exact ⟨q, hq, by rw [h.mode hq, hm], d, i, id, (h.nodeAt hq).2 hi⟩
  unfold Travel SuitModes
  rw [h1, h2]

/-! ### users -/

/-- C94, trips of a pair: the trips can start at the same stops, with the same labels. -/
theorem C94_starts (hg : DistinctIds g) (ha : Admissible routes sPTP freq pas) (ha' : Admissible routes' sPTP freq' pas)
    (hx : buildExtGraph g routes sPTP freq = .ok x) (hx' : buildExtGraph g routes' sPTP freq' = .ok x')
    (h : SplitLines routes routes' (frequencies routes freq) (frequencies routes' freq') whole) {e e' : ODResult K}
    (he : e.Computed x pas) (he' : e'.Computed x' pas) (ho : e'.origin = e.origin) (hd : e'.dest = e.dest) :
    (Dict.keys e'.paths).Perm (Dict.keys e.paths) ∧
    ∀ s ∈ Dict.keys e.paths, e'.res.label (.stop s) = e.res.label (.stop s) ∧ s ∈ stopsOf x.nodes := by
  have hse := ha.searchable hx
  have hse' := ha'.searchable hx'
  obtain ⟨r, paths, h1, h2, h3, _⟩ := hyperpathOD_spec (h := ⟨x.nodes, x.edges, pas, none, none⟩) hse e.origin e.dest
  obtain ⟨r', paths', h1', h2', h3', _⟩ := hyperpathOD_spec (h := ⟨x'.nodes, x'.edges, pas, none, none⟩) hse' e.origin e.dest
  unfold ODResult.Computed at he he'
  rw [ho, hd] at he'
  rw [h1] at he
  rw [h1'] at he'
  simp only [Except.ok.injEq, Prod.mk.injEq] at he he'
  obtain ⟨rfl, rfl⟩ := he
  obtain ⟨rfl, rfl⟩ := he'
  obtain ⟨hs1, _, hs3, _⟩ := C94_trips hg ha ha' hx hx' h h2 h2'
  have hmem : ∀ s, s ∈ Dict.keys e'.paths ↔ s ∈ Dict.keys e.paths := by
    intro s
    rw [h3, h3', List.mem_filter, List.mem_filter, mem_stopsAt (nodesOk hg hx), mem_stopsAt (nodesOk hg hx'), hs1]
    constructor
    · rintro ⟨hs, hl⟩
      exact ⟨hs, by rw [← hs3 s hs.1]; exact hl⟩
    · rintro ⟨hs, hl⟩
      exact ⟨hs, by rw [hs3 s hs.1]; exact hl⟩
  have hstop : ∀ s ∈ Dict.keys e.paths, s ∈ stopsOf x.nodes := by
    intro s hs
    rw [h3, List.mem_filter, mem_stopsAt (nodesOk hg hx)] at hs
    exact hs.1.1
  refine ⟨(List.perm_ext_iff_of_nodup ?_ ?_).2 hmem, fun s hs => ⟨hs3 s (hstop s hs), hstop s hs⟩⟩
  · rw [h3']
    exact (nodup_stopsAt (C34_stop_nodes hg hx').1 _).filter _
  · rw [h3]
    exact (nodup_stopsAt (C34_stop_nodes hg hx).1 _).filter _

/-- of two stops of which one has a single line, the order does not matter -/
theorem stopPair_perm {l l' : List (StopNode K)} (hp : l'.Perm l) (hnd : l.Nodup)
    (h1 : ∀ a ∈ l, ∀ b ∈ l, (a.mode.d = 1 ↔ b.mode.d = 1) → a = b) : stopPair l' = stopPair l := by
  match l, hnd, h1, hp with
  | [], _, _, hp => rw [hp.eq_nil]
  | [a], _, _, hp => rw [List.perm_singleton.1 hp]
  | [a, b], hnd, h1, hp =>
    have hab : a ≠ b := by simpa using hnd
    have hiff : ¬ (a.mode.d = 1 ↔ b.mode.d = 1) := fun h => hab (h1 a (by simp) b (by simp) h)
    have hl : l' = [a, b] ∨ l' = [b, a] := by
      have hlen := hp.length_eq
      match l', hlen, hp with
      | [c, e], _, hp =>
        have hc : c ∈ [a, b] := hp.subset (by simp)
        simp only [List.mem_cons, List.not_mem_nil, or_false] at hc
        rcases hc with rfl | rfl
        · left
          have := (List.perm_cons _).1 hp
          rw [List.perm_singleton.1 this]
        · right
          have := (List.perm_cons _).1 (hp.trans (List.Perm.swap _ _ _))
          rw [List.perm_singleton.1 this]
    rcases hl with rfl | rfl
    · rfl
    · by_cases ha : a.mode.d = 1
      · have hb : ¬ b.mode.d = 1 := fun hb => hiff ⟨fun _ => hb, fun _ => ha⟩
        simp [stopPair, stopPairStep, ha, hb]
      · have hb : b.mode.d = 1 := by
          by_contra hb
          exact hiff ⟨fun h => absurd h ha, fun h => absurd h hb⟩
        simp [stopPair, stopPairStep, ha, hb]
  | a :: b :: c :: t, hnd, h1, _ =>
    exfalso
    have hab : a ≠ b := by intro h; subst h; simp at hnd
    have hac : a ≠ c := by intro h; subst h; simp at hnd
    have hbc : b ≠ c := by intro h; subst h; simp at hnd
    have e1 : ¬ (a.mode.d = 1 ↔ b.mode.d = 1) := fun h => hab (h1 a (by simp) b (by simp) h)
    have e2 : ¬ (a.mode.d = 1 ↔ c.mode.d = 1) := fun h => hac (h1 a (by simp) c (by simp) h)
    have e3 : ¬ (b.mode.d = 1 ↔ c.mode.d = 1) := fun h => hbc (h1 b (by simp) c (by simp) h)
    tauto

/-- C94, shares: the trips of a pair are shared between the stops in the same way, unless two modes have a single line per
street. -/
theorem C94_shares (hg : DistinctIds g) (ha : Admissible routes sPTP freq pas) (ha' : Admissible routes' sPTP freq' pas)
    (hx : buildExtGraph g routes sPTP freq = .ok x) (hx' : buildExtGraph g routes' sPTP freq' = .ok x')
    (h : SplitLines routes routes' (frequencies routes freq) (frequencies routes' freq') whole)
    (hm : ∀ r ∈ routes, ∀ r' ∈ routes, (r.mode.d = 1 ↔ r'.mode.d = 1) → r.mode = r'.mode) {e e' : ODResult K}
    (he : e.Computed x pas) (he' : e'.Computed x' pas) (ho : e'.origin = e.origin) (hd : e'.dest = e.dest) (p vp spa spv : K) :
    sharesOf (Dict.keys e'.paths) e'.res.label p vp spa spv = sharesOf (Dict.keys e.paths) e.res.label p vp spa spv := by
  obtain ⟨hp, hl⟩ := C94_starts hg ha ha' hx hx' h he he' ho hd
  have hkeys : ∀ s ∈ Dict.keys e.paths, s.city = e.origin := by
    obtain ⟨r, paths, h1, _, h3, _⟩ := hyperpathOD_spec (h := ⟨x.nodes, x.edges, pas, none, none⟩) (ha.searchable hx) e.origin
      e.dest
    unfold ODResult.Computed at he
    rw [h1] at he
    simp only [Except.ok.injEq, Prod.mk.injEq] at he
    obtain ⟨rfl, rfl⟩ := he
    intro s hs
    rw [h3, List.mem_filter, mem_stopsAt (nodesOk hg hx)] at hs
    exact hs.1.2
  have hnd : (Dict.keys e.paths).Nodup := by
    obtain ⟨r, paths, h1, _, h3, _⟩ := hyperpathOD_spec (h := ⟨x.nodes, x.edges, pas, none, none⟩) (ha.searchable hx) e.origin
      e.dest
    unfold ODResult.Computed at he
    rw [h1] at he
    simp only [Except.ok.injEq, Prod.mk.injEq] at he
    obtain ⟨rfl, rfl⟩ := he
    rw [h3]
    exact (nodup_stopsAt (C34_stop_nodes hg hx).1 _).filter _
  have hpair := stopPair_perm hp hnd fun a ha' b hb hiff => by
    obtain ⟨_, r, hr, hra, _⟩ := ((C34_stop_nodes hg hx).2.1 a).1 (hl a ha').2
    obtain ⟨_, r', hr', hrb, _⟩ := ((C34_stop_nodes hg hx).2.1 b).1 (hl b hb).2
    have hmode : a.mode = b.mode := by
      rw [← hra, ← hrb] at hiff ⊢
      exact hm r hr r' hr' hiff
    have hcity := (hkeys a ha').trans (hkeys b hb).symm
    cases a
    cases b
    simp only at hmode hcity
    rw [hmode, hcity]
  unfold sharesOf
  rw [hpair]
  have hin : ∀ s, (stopPair (Dict.keys e.paths)).1 = some s ∨ (stopPair (Dict.keys e.paths)).2 = some s →
      s ∈ Dict.keys e.paths := by
    have key : ∀ (l : List (StopNode K)) (acc : Option (StopNode K) × Option (StopNode K)) (s : StopNode K),
        (l.foldl stopPairStep acc).1 = some s ∨ (l.foldl stopPairStep acc).2 = some s →
        s ∈ l ∨ acc.1 = some s ∨ acc.2 = some s := by
      intro l
      induction l with
      | nil => exact fun acc s hs => Or.inr hs
      | cons a t ih =>
        intro acc s hs
        rcases ih _ _ hs with h | h
        · exact Or.inl (List.mem_cons_of_mem _ h)
        · unfold stopPairStep at h
          split_ifs at h
          · cases hacc : acc.1 with
            | none =>
              simp only [hacc, Option.some.injEq] at h
              rcases h with rfl | h
              · simp
              · exact Or.inr (Or.inr h)
            | some v =>
              simp only [hacc, Option.some.injEq] at h
              rcases h with rfl | rfl
              · exact Or.inr (Or.inl rfl)
              · simp
          · rcases h with h | h
            · exact Or.inr (Or.inl h)
            · simp only [Option.some.injEq] at h
              subst h
              simp
    intro s hs
    rcases key _ _ s hs with h | h | h
    · exact h
    · cases h
    · cases h
  generalize hsp : stopPair (Dict.keys e.paths) = q at hin
  obtain ⟨q1, q2⟩ := q
  cases q1 with
  | none => cases q2 <;> rfl
  | some s1 =>
    cases q2 with
    | none => rfl
    | some s2 =>
      simp only
      rw [(hl s1 (hin s1 (Or.inl rfl))).1, (hl s2 (hin s2 (Or.inr rfl))).1]

/-- the second entry is the trips of the same pair, with the shares of its network -/
def SamePair (p vp spa spv : K) (a b : ODResult K × Dict (StopNode K) K) : Prop :=
  b.1.origin = a.1.origin ∧ b.1.dest = a.1.dest ∧ b.1.vij = a.1.vij ∧
  sharesOf (Dict.keys a.1.paths) a.1.res.label p vp spa spv = .ok a.2 ∧
  sharesOf (Dict.keys b.1.paths) b.1.res.label p vp spa spv = .ok b.2

/-- C94, users: passengers that value time as the assignment does, and board without delay, spend the same. -/
theorem C94_users (hg : DistinctIds g) (ha : Admissible routes sPTP freq pas) (ha' : Admissible routes' sPTP freq' pas)
    (hx : buildExtGraph g routes sPTP freq = .ok x) (hx' : buildExtGraph g routes' sPTP freq' = .ok x')
    (h : SplitLines routes routes' (frequencies routes freq) (frequencies routes' freq') whole)
    (hm : ∀ r ∈ routes, ∀ r' ∈ routes, (r.mode.d = 1 ↔ r'.mode.d = 1) → r.mode = r'.mode)
    {N N' : Nat} {l l' : List (ODResult K × Dict (StopNode K) K)} (hl : Loading x pas N (frequencies routes freq) l)
    (hl' : Loading x' pas N' (frequencies routes' freq') l') {p vp spa spv : K} (hpairs : List.Forall₂ (SamePair p vp spa spv) l l')
    (hf : ∀ id, 0 ≤ (frequencies routes freq).getD id 0) (hf' : ∀ id, 0 ≤ (frequencies routes' freq').getD id 0)
    (hva : pas.va ≠ 0) (hs : SameValues sPTP pas)
    (hone : (∀ r ∈ routes, ∀ r' ∈ routes, r.mode = r'.mode) ∨ ∀ r ∈ routes, r.mode.tat = 0)
    (ht : ∀ r ∈ routes, r.mode.t = 0) (z v z' v' : Dict (LoadKey K) K) :
    ∃ c, usersCost N (frequencies routes freq) x pas z v l = .ok c ∧
      usersCost N' (frequencies routes' freq') x' pas z' v' l' = .ok c := by
  refine ⟨labelCost pas l, C53_users_cost ha hg hx hf hl hva hs hone ht, ?_⟩
  have hmq : ∀ q ∈ routes', q.mode = (whole q).mode := fun q hq => h.mode hq
  rw [C53_users_cost ha' hg hx' hf' hl' hva hs ?_ ?_]
  · congr 1
    unfold labelCost
    have hc := hl.computed
    have hc' := hl'.computed
    clear hl hl'
    induction hpairs with
    | nil => rfl
    | @cons a b t t' hab _ ih =>
      rw [List.map_cons, List.map_cons, List.sum_cons, List.sum_cons,
        ih (fun q hq => hc q (List.mem_cons_of_mem _ hq)) (fun q hq => hc' q (List.mem_cons_of_mem _ hq))]
      congr 1
      obtain ⟨ho, hd, hv, hsa, hsb⟩ := hab
      have hca := hc a List.mem_cons_self
      have hcb := hc' b List.mem_cons_self
      obtain ⟨hp, hlab⟩ := C94_starts hg ha ha' hx hx' h hca hcb ho hd
      rw [C94_shares hg ha ha' hx hx' h hm hca hcb ho hd, hsa] at hsb
      have hsame : a.2 = b.2 := Except.ok.inj hsb
      rw [(hp.map _).sum_eq]
      congr 1
      refine List.map_congr_left fun s hs' => ?_
      unfold lateral
      rw [(hlab s hs').1, hv, ho, hsame]
  · rcases hone with h1 | h1
    · left
      intro q hq q' hq'
      rw [hmq q hq, hmq q' hq']
      exact h1 _ (h.known q hq) _ (h.known q' hq')
    · right
      intro q hq
      rw [hmq q hq]
      exact h1 _ (h.known q hq)
  · intro q hq
    rw [hmq q hq]
    exact ht _ (h.known q hq)

/-! ### costs and limits -/

variable {modes : List (Mode K)}

/-- C94, streets: the vehicles per hour on a street are the same. -/
theorem C94_streets (h : SplitLines routes routes' f f' whole) (m : Mode K) (a b : Int) :
    vehicleFlow routes' f' m a b = vehicleFlow routes f m a b := by
  have hcond : ∀ (l : List (Route K)) (e : Dict Str K), vehicleFlow l e m a b =
      (l.map fun r => e.getD r.id 0 * if r.mode = m then (r.crossings a b : K) else 0).sum := by
    intro l e
    unfold vehicleFlow
    induction l with
    | nil => rfl
    | cons r t ih =>
      rw [List.filter_cons, List.map_cons, List.sum_cons, ← ih]
      by_cases hm : r.mode = m
      · rw [if_pos (decide_eq_true hm), if_pos hm, List.map_cons, List.sum_cons]
      · rw [if_neg (by simpa using hm), if_neg hm, mul_zero, zero_add]
  rw [hcond, hcond, ← h.sum]
  congr 1
  refine List.map_congr_left fun q hq => ?_
  have hcr : q.crossings a b = (whole q).crossings a b := by
    conv_lhs => rw [h.same q hq]
    rfl
  rw [h.mode hq, hcr]

/-- C94, streets: so the limits hold for the parts exactly when they hold for the lines. -/
theorem C94_street_limits {n : Nat} (hs : CityShape g n) (hids : DistinctIds g) (h : SplitLines routes routes' f f' whole)
    (hd : ∀ m ∈ modes, 0 < m.d) {c c' : List K} (hc : fmaxConstrains g routes modes f = .ok c)
    (hc' : fmaxConstrains g routes' modes f' = .ok c') : (∀ y ∈ c', y ≤ 0) ↔ ∀ y ∈ c, y ≤ 0 := by
  rw [C47_feasible_iff hs hids routes' modes f' hd hc', C47_feasible_iff hs hids routes modes f hd hc]
  simp only [C94_streets h]

/-- C94, operators: parts with the vehicles and the cycle of the line cost together what the line costs. -/
theorem C94_operators (h : SplitLines routes routes' f f' whole) {cycle cycle' k k' : Dict Str K}
    (hsame : ∀ q ∈ routes', f'.getD q.id 0 ≠ 0 →
      cycle'.getD q.id 0 = cycle.getD (whole q).id 0 ∧ k'.getD q.id 0 = k.getD (whole q).id 0) :
    operatorsCost routes' cycle' f' k' = operatorsCost routes cycle f k := by
  rw [operatorsCost_eq, operatorsCost_eq]
  have := h.sum fun r => (r.mode.co + r.mode.c1 * k.getD r.id 0) * cycle.getD r.id 0
  calc _ = (routes'.map fun q => f'.getD q.id 0 * (((whole q).mode.co + (whole q).mode.c1 * k.getD (whole q).id 0) *
          cycle.getD (whole q).id 0)).sum := by
        congr 1
        refine List.map_congr_left fun q hq => ?_
        by_cases h0 : f'.getD q.id 0 = 0
        · rw [h0]; ring
        · rw [(hsame q hq h0).1, (hsame q hq h0).2, h.mode hq]; ring
    _ = _ := this
    _ = _ := by
        congr 1
        refine List.map_congr_left fun r _ => ?_
        ring

/-- C94, infrastructure: nothing more is built for the parts than for the lines. -/
theorem C94_infrastructure {n : Nat} (hs : CityShape g n) (hids : DistinctIds g) (h : SplitLines routes routes' f f' whole)
    (hf : ∀ q ∈ routes', 0 ≤ f'.getD q.id 0) (hnd : modes.Nodup) :
    infrastructureCost g routes' modes f' = infrastructureCost g routes modes f := by
  have hused : ∀ m, UsedStreet g n routes' f' m = UsedStreet g n routes f m := by
    intro m
    funext a b
    unfold UsedStreet Drives
    have hcr : ∀ q ∈ routes', q.crossings a.id b.id = (whole q).crossings a.id b.id := by
      intro q hq
      conv_lhs => rw [h.same q hq]
      rfl
    apply propext
    constructor
    · rintro ⟨h1, h2, h3, q, hq, q1, q2, q3⟩
      exact ⟨h1, h2, h3, whole q, h.known q hq, by rw [← h.mode hq, q1],
        ((h.runs_iff hf (h.known q hq)).2 ⟨q, hq, rfl, lt_of_le_of_ne (hf q hq) (Ne.symm q2)⟩).ne', by
          rw [← hcr q hq]; exact q3⟩
    · rintro ⟨h1, h2, h3, r, hr, q1, q2, q3⟩
      have hnn : 0 ≤ f.getD r.id 0 := by
        rw [h.freqs r hr]
        refine List.sum_nonneg fun y hy => ?_
        obtain ⟨q, hq, rfl⟩ := List.mem_map.1 hy
        exact hf q (List.mem_filter.1 hq).1
      obtain ⟨q, hq, rfl, h4⟩ := (h.runs_iff hf hr).1 (lt_of_le_of_ne hnn (Ne.symm q2))
      exact ⟨h1, h2, h3, q, hq, by rw [h.mode hq, q1], h4.ne', by rw [hcr q hq]; exact q3⟩
  choose S hS using fun m => C46_streets_exist g n routes f m
  rw [C46_cost hs hids routes' hnd f' (S := S) (fun m _ => by rw [hused]; exact hS m),
    C46_cost hs hids routes hnd f (S := S) (fun m _ => hS m)]

end Generic

/-! ## examples -/

section Examples

attribute [local instance] ratMath ratText

/-- the first bus line of `demoRoutes` as two lines, the metro as three -/
def splitRoutes : List (Route ℚ) :=
  [⟨"a1".toList, demoMode, [1, 2, 0], [0, 2, 1], [1, 2, 0], [0, 2, 1], .custom⟩,
   ⟨"b1".toList, demoMetro, [1, 2, 0, 4], [4, 0, 2, 1], [1, 4], [4, 1], .custom⟩,
   ⟨"c".toList, demoMode, [2, 4, 6, 2], [], [2, 4, 6, 2], [], .circular⟩,
   ⟨"b2".toList, demoMetro, [1, 2, 0, 4], [4, 0, 2, 1], [1, 4], [4, 1], .custom⟩,
   ⟨"a2".toList, demoMode, [1, 2, 0], [0, 2, 1], [1, 2, 0], [0, 2, 1], .custom⟩,
   ⟨"b3".toList, demoMetro, [1, 2, 0, 4], [4, 0, 2, 1], [1, 4], [4, 1], .custom⟩]

/-- the lines run twelve, ten and eight times an hour -/
def wholeFreq : Option (Dict Str ℚ) := some [("a".toList, 12), ("b".toList, 10), ("c".toList, 8)]

/-- so do their parts together; one of them does not run -/
def splitFreq : Option (Dict Str ℚ) :=
  some [("a1".toList, 5), ("a2".toList, 7), ("b1".toList, 4), ("b2".toList, 0), ("b3".toList, 6), ("c".toList, 8)]

/-- the line of a part -/
def splitWhole (q : Route ℚ) : Route ℚ := { q with id := q.id.take 1 }

theorem split_demo : SplitLines demoRoutes splitRoutes (frequencies demoRoutes wholeFreq)
    (frequencies splitRoutes splitFreq) splitWhole :=
  ⟨by decide +kernel, by decide +kernel, by decide +kernel, by decide +kernel, by decide +kernel, by decide +kernel⟩

theorem split_admissible : Admissible demoRoutes 2 wholeFreq demoPassenger ∧ Admissible splitRoutes 2 splitFreq demoPassenger := by
  constructor
  all_goals
    refine ⟨?_, by decide +kernel, by norm_num, demoAdmissible.root, demoAdmissible.pv, demoAdmissible.pw, demoAdmissible.pa⟩
  · exact demoAdmissible.modes
  · intro q hq
    rw [split_demo.mode hq]
    exact demoAdmissible.modes _ (split_demo.known q hq)

/-- the hypotheses of C94 hold, and the labels are as claimed -/
example : serviceLabels (demoCity 3) demoRoutes 2 wholeFreq demoPassenger 1 4 = some [some (601/600), some (24/25)] ∧
    serviceLabels (demoCity 3) splitRoutes 2 splitFreq demoPassenger 1 4 = some [some (601/600), some (24/25)] := by
  decide +kernel

/-- without the vehicles of one part the trip takes longer -/
example : serviceLabels (demoCity 3) splitRoutes 2 (splitFreq.map fun l => l.set "b3".toList 0) demoPassenger 1 4 =
    some [some (601/600), some (63/50)] := by decide +kernel

/-- the limits and the costs of C94 for it -/
example : vehicleFlow splitRoutes (frequencies splitRoutes splitFreq) demoMetro 2 0 = 10 ∧
    vehicleFlow demoRoutes (frequencies demoRoutes wholeFreq) demoMetro 2 0 = 10 ∧
    infrastructureCost (demoCity 3) splitRoutes [demoMode, demoMetro] (frequencies splitRoutes splitFreq) = 13/2 ∧
    infrastructureCost (demoCity 3) demoRoutes [demoMode, demoMetro] (frequencies demoRoutes wholeFreq) = 13/2 ∧
    (∀ q ∈ splitRoutes, 0 ≤ (frequencies splitRoutes splitFreq).getD q.id 0) ∧ [demoMode, demoMetro].Nodup := by
  decide +kernel

/-- cycles and capacities for the example of the operators -/
example : ∀ q ∈ splitRoutes, (frequencies splitRoutes splitFreq).getD q.id 0 ≠ 0 →
    (Dict.getD [("a1".toList, (2 : ℚ)), ("a2".toList, 2), ("b1".toList, 3), ("b3".toList, 3), ("c".toList, 1)] q.id 0 =
      Dict.getD [("a".toList, (2 : ℚ)), ("b".toList, 3), ("c".toList, 1)] (splitWhole q).id 0) := by decide +kernel

/-- the cost of the users -/
def splitCost (rs : List (Route ℚ)) (freq : Option (Dict Str ℚ)) : Py ℚ := do
  let x ← buildExtGraph (demoCity 3) rs 2 freq
  let res ← allHyperpaths x.nodes x.edges demoFair busOD
  let shares ← getAssignment res 2 4 6 2
  let t ← getLoads (allNodes x.nodes).length (frequencies rs freq) (res.zip shares)
  usersCost (allNodes x.nodes).length (frequencies rs freq) x demoFair t.z t.v (res.zip shares)

/-- the vehicles stop without delay -/
def noDelay (rs : List (Route ℚ)) : List (Route ℚ) := rs.map fun r => { r with mode := { r.mode with t := 0 } }

/-- the bus lines, and the first of them as two -/
def splitBuses : List (Route ℚ) :=
  [⟨"a1".toList, demoMode, [1, 2, 0], [0, 2, 1], [1, 2, 0], [0, 2, 1], .custom⟩,
   ⟨"a2".toList, demoMode, [1, 2, 0], [0, 2, 1], [1, 2, 0], [0, 2, 1], .custom⟩,
   ⟨"c".toList, demoMode, [2, 4, 6, 2], [], [2, 4, 6, 2], [], .circular⟩]

/-- the hypotheses of C94 for the users, and the cost; with the parts of the line at the frequency of the whole it would be
smaller -/
example : SplitLines (noDelay demoBuses) (noDelay splitBuses) (frequencies (noDelay demoBuses) (some [("a".toList, 3), ("c".toList, 2)]))
      (frequencies (noDelay splitBuses) (some [("a1".toList, 1), ("a2".toList, 2), ("c".toList, 2)])) splitWhole ∧
    (∀ r ∈ noDelay demoBuses, r.mode.t = 0) ∧ (∀ r ∈ noDelay demoBuses, ∀ r' ∈ noDelay demoBuses, r.mode = r'.mode) ∧
    splitCost (noDelay demoBuses) (some [("a".toList, 3), ("c".toList, 2)]) = .ok (1309/25) ∧
    splitCost (noDelay splitBuses) (some [("a1".toList, 1), ("a2".toList, 2), ("c".toList, 2)]) = .ok (1309/25) ∧
    splitCost (noDelay splitBuses) (some [("a1".toList, 3), ("a2".toList, 3), ("c".toList, 2)]) = .ok (3527/75) := by
  refine ⟨⟨by decide +kernel, by decide +kernel, by decide +kernel, by decide +kernel, by decide +kernel, by decide +kernel⟩,
    by decide +kernel, by decide +kernel, by decide +kernel, by decide +kernel, by decide +kernel⟩

end Examples

end Sidermit
