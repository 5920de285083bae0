import Verif.Props.Service
import Verif.Props.Rides
import Verif.Props.Costs

/-!
C93: lines that do not run.
-/

set_option linter.unusedSectionVars false

namespace Sidermit

section Generic

variable {K : Type} [Field K] [LinearOrder K] [IsStrictOrderedRing K] [PyMath K] {g : Graph K}
  {routes routes' : List (Route K)} {sPTP : K} {freq freq' : Option (Dict Str K)} {x x' : ExtGraph K} {pas : Passenger K}

/-- the second network has the lines of the first one with the same frequencies, and other lines that do not run -/
structure IdleLines (routes routes' : List (Route K)) (freq freq' : Option (Dict Str K)) : Prop where
  ids : (routes.map Route.id).Nodup
  ids' : (routes'.map Route.id).Nodup
  lines : ∀ r ∈ routes, r ∈ routes'
  freqs : ∀ r ∈ routes, (frequencies routes freq).getD r.id 0 = (frequencies routes' freq').getD r.id 0
  idle : ∀ r ∈ routes', r ∉ routes → (frequencies routes' freq').getD r.id 0 = 0

theorem IdleLines.more (h : IdleLines routes routes' freq freq') : MoreLines routes routes' freq freq' :=
  ⟨h.ids, h.lines, fun r hr => (h.freqs r hr).le⟩

/-- the node of a line of the first network, found from the second one -/
theorem renumber_back {n : RouteNode K} (hn : n.Wanted g routes') (hr : n.route ∈ routes) :
    (renumber routes n).Wanted g routes := ⟨List.getElem?_idxOf hr, hn.2⟩

theorem stop_of_node {n : RouteNode K} (hn : n.Wanted g routes') (hr : n.route ∈ routes) : n.stop.Wanted g routes :=
  ⟨hn.2.2.2, n.route, hr, hn.2.2.1.symm, n.dir, n.pos, hn.2.1⟩

/-- what a strategy of the second network becomes in the first one: stops that only lines without vehicles have are left on
foot, and nodes of these lines are never reached -/
def RunsInstead (edges : List (EEdge K)) (pas : Passenger K) (o d : Option (CityNode K)) (g : Graph K)
    (routes : List (Route K)) (n : ENode K) (c : K) : Prop :=
  match n with
  | .city k => ∃ c' ≤ c, Strategy edges pas o d (.city k) c'
  | .stop s => (s.Wanted g routes → ∃ c' ≤ c, Strategy edges pas o d (.stop s) c') ∧
      (¬ s.Wanted g routes → ∃ c' ≤ c, Strategy edges pas o d (.city s.city) c')
  | .route n => n.route ∈ routes → ∃ c' ≤ c, Strategy edges pas o d (.route (renumber routes n)) c'

theorem IdleLines.instead (hi : IdleLines routes routes' freq freq') (hway : NoNewStops g routes routes')
    (hg : DistinctIds g) (ha' : Admissible routes' sPTP freq' pas) (hx : buildExtGraph g routes sPTP freq = .ok x)
    (hx' : buildExtGraph g routes' sPTP freq' = .ok x') {o d : Option (CityNode K)} {n : ENode K} {c : K}
    (hs : Strategy x'.edges pas o d n c) : RunsInstead x.edges pas o d g routes n c := by
  have hse := ha'.searchable hx'
  have hleg : ∀ p n : RouteNode K, n.route ∈ routes → legDistance (x.nodes.map fun p => p.1.node) (renumber routes p)
      (renumber routes n) = legDistance (x'.nodes.map fun p => p.1.node) p n := by
    intro p n hr
    unfold legDistance
    refine legLoop_congr _ ?_ _ _ _
    intro id hid
    rw [find_served hg hx', find_served hg hx]
    refine List.find?_congr ?_
    intro m hmg
    rw [decide_eq_decide]
    constructor
    · rintro ⟨h1, s, h2, h3⟩
      exact ⟨h1, s, stop_wanted hi.lines h2, h3⟩
    · rintro ⟨h1, h2⟩
      exact ⟨h1, hway _ hr n.dir m hmg (by rw [← h1]; exact hid) h2⟩
  induction hs with
  | arrive k hd => exact ⟨0, le_refl _, .arrive k hd⟩
  | go e he hb hio hjo c hc ih =>
    have ht := hse.time e he
    cases hty : e.type with
    | boarding => exact absurd hty hb
    | access =>
      have hpos : 0 ≤ legTime pas d e := by
        unfold legTime
        rw [hty]
        exact div_nonneg (mul_nonneg ht ha'.pa) ha'.pv.le
      obtain ⟨s, hsw, rfl | rfl⟩ := ((C35_edges hg hx' e).1).1 ⟨he, hty⟩
      · obtain ⟨h1, h2⟩ := ih
        by_cases hw : s.Wanted g routes
        · obtain ⟨c', hle, hs'⟩ := h1 hw
          exact ⟨_, add_le_add_right hle _, .go _ (((C35_edges hg hx _).1).2 ⟨s, hw, Or.inl rfl⟩).1 hb hio hjo c' hs'⟩
        · obtain ⟨c', hle, hs'⟩ := h2 hw
          exact ⟨c', hle.trans (le_add_of_nonneg_left hpos), hs'⟩
      · obtain ⟨c', hle, hs'⟩ := ih
        refine ⟨fun hw => ?_, fun _ => ?_⟩
        · exact ⟨_, add_le_add_right hle _, .go _ (((C35_edges hg hx _).1).2 ⟨s, hw, Or.inr rfl⟩).1 hb hio hjo c' hs'⟩
        · exact ⟨c', hle.trans (le_add_of_nonneg_left hpos), hs'⟩
    | alighting =>
      obtain ⟨n, hn, hcn, rfl⟩ := ((C35_edges hg hx' e).2.2).1 ⟨he, hty⟩
      intro hr
      obtain ⟨c', hle, hs'⟩ := ih.1 (stop_of_node hn hr)
      exact ⟨_, add_le_add_right hle _, .go _ (((C35_edges hg hx _).2.2).2 ⟨_, renumber_back hn hr, hcn, rfl⟩).1 hb
        (by cases o <;> simp) hjo c' hs'⟩
    | route =>
      obtain ⟨p, n, hp, hn, hpn, rfl⟩ := (mem_route_edges hg hx' e).1 ⟨he, hty⟩
      have hpr : p.route = n.route := by
        have h1 := hp.1
        rw [hpn.1, hn.1] at h1
        exact (Option.some.inj h1).symm
      intro hr
      have hrn : n.route ∈ routes := by rw [← hpr]; exact hr
      obtain ⟨c', hle, hs'⟩ := ih hrn
      have hin := ((mem_route_edges hg hx _).2 ⟨_, _, renumber_back hp hr, renumber_back hn hrn,
        ⟨by simp only [renumber, hpr], hpn.2.1, hpn.2.2⟩, rfl⟩).1
      rw [hleg p n hrn] at hin
      exact ⟨_, add_le_add_right hle _, .go _ hin hb (by cases o <;> simp) (by cases o <;> simp) c' hs'⟩
  | wait s l hne hnd hl hs' ih =>
    have hb : ∀ p ∈ l, ∃ n : RouteNode K, n.Wanted g routes' ∧ n.CanBoard ∧ n.route ∈ routes ∧ n.stop = s ∧
        p.1 = ⟨.stop n.stop, .route n, 0, some ((frequencies routes' freq').getD n.route.id 0 / (n.route.mode.d : K)),
          .boarding⟩ := by
      intro p hp
      obtain ⟨h1, h2, h3, h4⟩ := hl p hp
      obtain ⟨n, hn, hc, he⟩ := ((C35_edges hg hx' p.1).2.1).1 ⟨h1, h2⟩
      refine ⟨n, hn, hc, ?_, ?_, he⟩
      · by_contra hno
        rw [he, lineFreq, Option.getD_some, hi.idle _ (List.mem_of_getElem? hn.1) hno, zero_div] at h4
        exact lt_irrefl _ h4
      · rw [he] at h3
        exact ENode.stop.inj h3
    have : Nonempty (RouteNode K) := by
      obtain ⟨p, hp⟩ := List.exists_mem_of_ne_nil _ hne
      exact ⟨(hb p hp).choose⟩
    choose! n hn hcb hrun hns he using hb
    have hw : s.Wanted g routes := by
      obtain ⟨p, hp⟩ := List.exists_mem_of_ne_nil _ hne
      rw [← hns p hp]
      exact stop_of_node (hn p hp) (hrun p hp)
    refine ⟨fun _ => ?_, fun h => absurd hw h⟩
    have hcost : ∀ p ∈ l, ∃ c' ≤ p.2, Strategy x.edges pas o d (.route (renumber routes (n p))) c' := by
      intro p hp
      have := ih p hp
      rw [he p hp] at this
      exact this (hrun p hp)
    choose! cost hle hstr using hcost
    let e' : EEdge K × K → EEdge K := fun p => ⟨.stop s, .route (renumber routes (n p)), 0, p.1.f, .boarding⟩
    have hin : ∀ p ∈ l, e' p ∈ x.edges := by
      intro p hp
      refine (((C35_edges hg hx _).2.1).2 ⟨_, renumber_back (hn p hp) (hrun p hp), hcb p hp, ?_⟩).1
      simp only [e', renumber, hns p hp, he p hp, hi.freqs _ (hrun p hp)]
    have hleg' : ∀ p ∈ l, legTime pas d (e' p) = legTime pas d p.1 := by
      intro p hp
      rw [he p hp]
      rfl
    have hpos : 0 < (l.map fun p => lineFreq p.1).sum := by
      refine List.sum_pos _ ?_ (by simpa using hne)
      intro y hy
      obtain ⟨a, ha, rfl⟩ := List.mem_map.1 hy
      exact (hl a ha).2.2.2
    have hwait : 0 < waitCost pas s := by
      obtain ⟨p, hp⟩ := List.exists_mem_of_ne_nil _ hne
      obtain ⟨_, _, s', h1, hth⟩ := hse.board p.1 (hl p hp).1 (hl p hp).2.1
      rw [(hl p hp).2.2.1] at h1
      cases h1
      exact div_pos (mul_pos hth ha'.pw) ha'.pv
    obtain ⟨hT, hV⟩ := wait_no_worse l (waitCost pas s) (waitCost pas s) (fun p => lineFreq p.1)
      (fun p => lineFreq (e' p)) (fun p => legTime pas d p.1 + p.2) (fun p => legTime pas d (e' p) + cost p) hwait le_rfl
      (fun p hp => (hl p hp).2.2.2) (fun p _ => le_rfl) (fun p hp => add_le_add (hleg' p hp).le (hle p hp)) _
      (div_mul_cancel₀ _ hpos.ne')
    set V := (waitCost pas s + (l.map fun p => lineFreq p.1 * (legTime pas d p.1 + p.2)).sum) / (l.map fun p => lineFreq p.1).sum
    set T := l.filter fun p => decide (legTime pas d (e' p) + cost p ≤ V)
    have hsub : ∀ p ∈ T, p ∈ l := fun p hp => (List.mem_filter.1 hp).1
    refine ⟨_, hV, ?_⟩
    have key := Strategy.wait (edges := x.edges) (pas := pas) (origin := o) (dest := d) s
      (T.map fun p => (e' p, cost p)) (by simpa using hT) ?_ ?_ ?_
    · rw [List.map_map, List.map_map] at key
      exact key
    · rw [List.map_map]
      have hnd' : (T.map Prod.fst).Nodup := (List.filter_sublist.map _).nodup hnd
      rw [List.Nodup, List.pairwise_map] at hnd' ⊢
      refine hnd'.imp_of_mem ?_
      intro a b ha hb hab heq
      simp only [Function.comp_apply, e', EEdge.mk.injEq, ENode.route.injEq] at heq
      have := renumber_inj hi.ids' (hn a (hsub a ha)) (hn b (hsub b hb)) heq.2.1
      exact hab (by rw [he a (hsub a ha), he b (hsub b hb), this])
    · intro q hq
      obtain ⟨p, hp, rfl⟩ := List.mem_map.1 hq
      exact ⟨hin p (hsub p hp), rfl, rfl, (hl p (hsub p hp)).2.2.2⟩
    · intro q hq
      obtain ⟨p, hp, rfl⟩ := List.mem_map.1 hq
      exact hstr p (hsub p hp)

/-- C93, trips (partial: the lines that do not run have no stop at a node on the way of another line where no line stops that
runs; without that the claim fails, see `C93_idle_line_hurts`): lines that do not run change no label. -/
theorem C93_trips_partial (hg : DistinctIds g) (ha : Admissible routes sPTP freq pas)
    (ha' : Admissible routes' sPTP freq' pas) (hx : buildExtGraph g routes sPTP freq = .ok x)
    (hx' : buildExtGraph g routes' sPTP freq' = .ok x') (hi : IdleLines routes routes' freq freq')
    (hway : NoNewStops g routes routes') {o d : Option (CityNode K)} {r r' : HResult K}
    (hr : buildHyperpath ⟨x.nodes, x.edges, pas, o, d⟩ = .ok r) (hr' : buildHyperpath ⟨x'.nodes, x'.edges, pas, o, d⟩ = .ok r') :
    (∀ s ∈ stopsOf x.nodes, s ∈ stopsOf x'.nodes ∧ r'.label (.stop s) = r.label (.stop s)) ∧
    (∀ c ∈ Dict.keys x.nodes, c ∈ Dict.keys x'.nodes ∧ r'.label (.city c) = r.label (.city c)) := by
  obtain ⟨h1, h2⟩ := C66_more_lines_partial hg ha ha' hx hx' hi.more hway hr hr'
  obtain ⟨_, hst, _⟩ := C34_stop_nodes hg hx
  refine ⟨fun s hs => ⟨(h1 s hs).1, le_antisymm (h1 s hs).2 ?_⟩, fun c hc => ⟨(h2 c hc).1, le_antisymm (h2 c hc).2 ?_⟩⟩
  · by_cases hfin : r'.label (.stop s) = ⊤
    · rw [hfin]; exact le_top
    obtain ⟨c, hc, hl⟩ := C38_attained ha' hx' hr' ((mem_allNodes _).2 (Or.inr (Or.inl ⟨s, (h1 s hs).1, rfl⟩))) hfin
    obtain ⟨c', hle, hs'⟩ := (hi.instead hway hg ha' hx hx' hc).1 ((hst s).1 hs)
    refine (C39_optimal ha hx hr hs').trans ?_
    rw [hl, WithTop.coe_le_coe]
    exact add_le_add_left hle _
  · by_cases hfin : r'.label (.city c) = ⊤
    · rw [hfin]; exact le_top
    obtain ⟨v, hv, hl⟩ := C38_attained ha' hx' hr' ((mem_allNodes _).2 (Or.inl ⟨c, (h2 c hc).1, rfl⟩)) hfin
    obtain ⟨c', hle, hs'⟩ := hi.instead hway hg ha' hx hx' hv
    refine (C39_optimal ha hx hr hs').trans ?_
    rw [hl, WithTop.coe_le_coe]
    exact add_le_add_left hle _

/-- C93, demand: with lines that do not run, a demand is accepted exactly when it can be travelled on the lines that do, and
the modes of all lines suit the assignment: lines that do not run count there, see `C93_idle_mode_rejected`. -/
theorem C93_accepted (hg : DistinctIds g) (ha' : Admissible routes' sPTP freq' pas)
    (hx' : buildExtGraph g routes' sPTP freq' = .ok x') (hi : IdleLines routes routes' freq freq')
    (od : Dict Int (Dict Int K)) :
    networkValidator x'.nodes x'.edges pas od = .ok true ↔
      (∀ p ∈ od, ∀ q ∈ p.2, q.2 ≠ 0 → p.1 ≠ q.1 ∧ Travel routes (runs routes freq) p.1 q.1) ∧ SuitModes routes' := by
  rw [C68_validator hg ha' hx']
  have h : Ride routes' (runs routes' freq') = Ride routes (runs routes freq) := by
    funext a b
    simp only [Ride, eq_iff_iff, runs]
    constructor
    · rintro ⟨r, h1, h2, h3⟩
      have hr : r ∈ routes := by
        by_contra hno
        rw [hi.idle r h1 hno] at h2
        exact lt_irrefl _ h2
      exact ⟨r, hr, by rw [hi.freqs r hr]; exact h2, h3⟩
    · rintro ⟨r, h1, h2, h3⟩
      exact ⟨r, hi.lines r h1, by rw [← hi.freqs r h1]; exact h2, h3⟩
  unfold Travel
  rw [h]

/-- C93, demand (partial: the modes of all lines suit the assignment): lines that do not run change nothing. -/
theorem C93_accepted_partial (hg : DistinctIds g) (ha : Admissible routes sPTP freq pas)
    (ha' : Admissible routes' sPTP freq' pas) (hx : buildExtGraph g routes sPTP freq = .ok x)
    (hx' : buildExtGraph g routes' sPTP freq' = .ok x') (hi : IdleLines routes routes' freq freq') (hm : SuitModes routes)
    (hm' : SuitModes routes') (od : Dict Int (Dict Int K)) :
    networkValidator x'.nodes x'.edges pas od = .ok true ↔ networkValidator x.nodes x.edges pas od = .ok true := by
  rw [C93_accepted hg ha' hx' hi, C68_validator hg ha hx]
  simp only [hm, hm']

/-! ### costs and limits -/

variable {f : Dict Str K} {modes modes' : List (Mode K)}

/-- the second list of routes has the routes of the first one, and others with frequency zero -/
structure IdleRoutes (routes routes' : List (Route K)) (f : Dict Str K) : Prop where
  nodup : routes.Nodup
  nodup' : routes'.Nodup
  lines : ∀ r ∈ routes, r ∈ routes'
  idle : ∀ r ∈ routes', r ∉ routes → f.getD r.id 0 = 0

theorem sum_filter_zero {α : Type} (l : List α) (P Q : α → Bool) (v : α → K) (h : ∀ a ∈ l, Q a = false → v a = 0) :
    ((l.filter P).map v).sum = (((l.filter Q).filter P).map v).sum := by
  induction l with
  | nil => rfl
  | cons a t ih =>
    replace ih := ih fun b hb => h b (List.mem_cons_of_mem _ hb)
    have ha := h a List.mem_cons_self
    rw [List.filter_cons, List.filter_cons (p := Q)]
    cases hq : Q a with
    | true =>
      simp only [if_true, List.filter_cons (p := P)]
      split_ifs
      · rw [List.map_cons, List.map_cons, List.sum_cons, List.sum_cons, ih]
      · exact ih
    | false =>
      simp only [Bool.false_eq_true, if_false]
      split_ifs
      · rw [List.map_cons, List.sum_cons, ha hq, zero_add, ih]
      · exact ih

/-- a sum of terms that are zero for lines that do not run -/
theorem IdleRoutes.sum (h : IdleRoutes routes routes' f) (P : Route K → Bool) (v : Route K → K)
    (h0 : ∀ r : Route K, f.getD r.id 0 = 0 → v r = 0) : ((routes'.filter P).map v).sum = ((routes.filter P).map v).sum := by
  have hp : (routes'.filter fun r => decide (r ∈ routes)).Perm routes := by
    refine (List.perm_ext_iff_of_nodup (h.nodup'.filter _) h.nodup).2 fun r => ?_
    rw [List.mem_filter, decide_eq_true_eq]
    exact ⟨fun hr => hr.2, fun hr => ⟨h.lines r hr, hr⟩⟩
  rw [← ((hp.filter P).map v).sum_eq]
  exact sum_filter_zero _ _ _ _ fun r hr hq => h0 r (h.idle r hr (by simpa using hq))

/-- C93, streets: the vehicles per hour on a street are the same, so lines that do not run neither use nor free capacity. -/
theorem C93_streets (h : IdleRoutes routes routes' f) (m : Mode K) (a b : Int) :
    vehicleFlow routes' f m a b = vehicleFlow routes f m a b :=
  h.sum _ _ fun r hr => by rw [hr, zero_mul]

/-- C93, streets: the limits hold for all lines exactly when they hold for those that run. -/
theorem C93_street_limits {n : Nat} (hs : CityShape g n) (hids : DistinctIds g) (h : IdleRoutes routes routes' f)
    (hd : ∀ m ∈ modes', 0 < m.d) (hmax : ∀ m ∈ modes', 0 ≤ m.fmax) (hsub : ∀ m ∈ modes, m ∈ modes')
    (hm : ∀ r ∈ routes, r.mode ∈ modes) {c c' : List K} (hc : fmaxConstrains g routes modes f = .ok c)
    (hc' : fmaxConstrains g routes' modes' f = .ok c') : (∀ y ∈ c', y ≤ 0) ↔ ∀ y ∈ c, y ≤ 0 := by
  rw [C47_feasible_iff hs hids routes' modes' f hd hc',
    C47_feasible_iff hs hids routes modes f (fun m hm => hd m (hsub m hm)) hc]
  constructor
  · intro hh a ha b hb hst m hm
    rw [← C93_streets h]
    exact hh a ha b hb hst m (hsub m hm)
  · intro hh a ha b hb hst m hm'
    rw [C93_streets h]
    by_cases hin : m ∈ modes
    · exact hh a ha b hb hst m hin
    · have : routes.filter (fun r => r.mode = m) = [] := by
        rw [List.filter_eq_nil_iff]
        intro r hr heq
        exact hin (by rw [← of_decide_eq_true heq]; exact hm r hr)
      rw [vehicleFlow, this, List.map_nil, List.sum_nil]
      exact hmax m hm'

/-- C93, operators: lines that do not run cost nothing to operate, whatever their vehicles and cycles. -/
theorem C93_operators (h : IdleRoutes routes routes' f) {cycle cycle' k k' : Dict Str K}
    (hsame : ∀ r ∈ routes, cycle.getD r.id 0 = cycle'.getD r.id 0 ∧ k.getD r.id 0 = k'.getD r.id 0) :
    operatorsCost routes' cycle' f k' = operatorsCost routes cycle f k := by
  have h1 : operatorsCost routes' cycle' f k' = operatorsCost routes cycle' f k' := by
    have := h.sum (fun _ => true)
      (fun r => (r.mode.co + r.mode.c1 * k'.getD r.id 0) * f.getD r.id 0 * cycle'.getD r.id 0)
      (fun r hr => by rw [hr, mul_zero, zero_mul])
    rw [List.filter_true, List.filter_true] at this
    rw [operatorsCost_eq, operatorsCost_eq, this]
  rw [h1]
  exact (C51_inactive routes fun r hr _ => hsame r hr).symm

/-- C93, infrastructure: nothing is built for lines that do not run. -/
theorem C93_infrastructure {n : Nat} (hs : CityShape g n) (hids : DistinctIds g) (h : IdleRoutes routes routes' f)
    (hnd : modes.Nodup) (hnd' : modes'.Nodup) (hsub : ∀ m ∈ modes, m ∈ modes') (hm : ∀ r ∈ routes, r.mode ∈ modes) :
    infrastructureCost g routes' modes' f = infrastructureCost g routes modes f := by
  classical
  have hused : ∀ m, UsedStreet g n routes' f m = UsedStreet g n routes f m := by
    intro m
    funext a b
    unfold UsedStreet Drives
    apply propext
    constructor
    · rintro ⟨h1, h2, h3, r, hr, q1, q2, q3⟩
      exact ⟨h1, h2, h3, r, not_not.1 fun hno => q2 (h.idle r hr hno), q1, q2, q3⟩
    · rintro ⟨h1, h2, h3, r, hr, q1, q2, q3⟩
      exact ⟨h1, h2, h3, r, h.lines r hr, q1, q2, q3⟩
  choose S hS using fun m => C46_streets_exist g n routes f m
  have hno : ∀ m, m ∉ modes → S m = [] := by
    intro m hin
    rw [List.eq_nil_iff_forall_not_mem]
    rintro ⟨a, b⟩ hp
    have : ∀ a b, ¬ UsedStreet g n routes f m a b := by
      rintro a b ⟨_, _, _, r, hr, q1, _⟩
      exact hin (by rw [← q1]; exact hm r hr)
    rcases ((hS m).all a b).2 (Or.inl hp) with h' | h'
    · exact this _ _ h'
    · exact this _ _ h'
  rw [C46_cost hs hids routes' hnd' f (S := S) (fun m _ => by rw [hused]; exact hS m),
    C46_cost hs hids routes hnd f (S := S) (fun m _ => hS m)]
  have hp : (modes'.filter fun m => decide (m ∈ modes)).Perm modes := by
    refine (List.perm_ext_iff_of_nodup (hnd'.filter _) hnd).2 fun m => ?_
    rw [List.mem_filter, decide_eq_true_eq]
    exact ⟨fun hr => hr.2, fun hr => ⟨hsub m hr, hr⟩⟩
  rw [← (hp.map _).sum_eq]
  have := sum_filter_zero modes' (fun _ => true) (fun m => decide (m ∈ modes))
    (fun m => m.c2 * ((m.d : K) * lengthOf (S m))) fun m _ hq => by
      rw [hno m (by simpa using hq), lengthOf, List.map_nil, List.sum_nil, mul_zero, mul_zero]
  rw [List.filter_true, List.filter_true] at this
  exact this

end Generic

/-! ## examples -/

section Examples

attribute [local instance] ratMath ratText

/-- whether a demand is accepted, or what the validation raises -/
def serviceValid (g : Graph ℚ) (routes : List (Route ℚ)) (sPTP : ℚ) (freq : Option (Dict Str ℚ)) (pas : Passenger ℚ)
    (od : Dict Int (Dict Int ℚ)) : Py Bool := do
  let x ← buildExtGraph g routes sPTP freq
  networkValidator x.nodes x.edges pas od

/-- only the first line runs -/
def onlyFirst : Option (Dict Str ℚ) := some [("a".toList, 1), ("b".toList, 0)]

/-- C93 fails for the code without the proviso: a line that does not run, and that no passenger can use, makes a trip with
another line longer, because it brings a stop to a node that this line passes. -/
theorem C93_idle_line_hurts :
    IdleLines cornerRoutes (cornerRoutes ++ [cornerLine]) onlyFirst onlyFirst ∧
    Admissible cornerRoutes 2 onlyFirst demoPassenger ∧ Admissible (cornerRoutes ++ [cornerLine]) 2 onlyFirst demoPassenger ∧
    serviceLabels cornerCity cornerRoutes 2 onlyFirst demoPassenger 1 4 = some [some (63/50)] ∧
    serviceLabels cornerCity (cornerRoutes ++ [cornerLine]) 2 onlyFirst demoPassenger 1 4 = some [some (34/25)] := by
  refine ⟨⟨by decide +kernel, by decide +kernel, by decide +kernel, by decide +kernel, by decide +kernel⟩, ?_, ?_,
    by decide +kernel, by decide +kernel⟩
  all_goals
    refine ⟨?_, by decide +kernel, by norm_num, demoAdmissible.root, demoAdmissible.pv, demoAdmissible.pw, demoAdmissible.pa⟩
    intro r hr
    have hm : r.mode = demoMode := by revert r; decide +kernel
    rw [hm]
    exact ⟨by decide +kernel, by decide +kernel, by decide +kernel, by decide +kernel⟩

/-- a line of a third mode -/
def tramLine : Route ℚ :=
  ⟨"d".toList, { demoMode with oid := 3, name := "tram".toList }, [1, 2], [2, 1], [1, 2], [2, 1], .custom⟩

/-- all lines run but the tram -/
def noTram : Option (Dict Str ℚ) := some [("a".toList, 1), ("b".toList, 1), ("c".toList, 1), ("d".toList, 0)]

/-- C93 fails for the code here too: a line of a third mode that does not run makes the validation raise. -/
theorem C93_idle_mode_rejected :
    IdleLines demoRoutes (demoRoutes ++ [tramLine]) noTram noTram ∧
    serviceValid (demoCity 3) demoRoutes 2 noTram demoPassenger [(1, [(4, 10)])] = .ok true ∧
    serviceValid (demoCity 3) (demoRoutes ++ [tramLine]) 2 noTram demoPassenger [(1, [(4, 10)])] =
      .error .TransportNetwork := by
  refine ⟨⟨by decide +kernel, by decide +kernel, by decide +kernel, by decide +kernel, by decide +kernel⟩, ?_, ?_⟩ <;>
    decide +kernel

/-- two buses and a metro; the buses are removed, and a tram is added: every step succeeds -/
def busesRemoved : Network ℚ × Option PyErr × Option PyErr :=
  let bus : Str → Route ℚ := fun id => ⟨id, demoMode, [1, 2, 0], [0, 2, 1], [1, 2, 0], [0, 2, 1], .custom⟩
  let metro : Route ℚ := ⟨"m".toList, demoMetro, [1, 2, 0], [0, 2, 1], [1, 2, 0], [0, 2, 1], .custom⟩
  let s1 := ((((Network.init (demoCity 3)).addRoute (bus "a".toList)).1.addRoute (bus "b".toList)).1.addRoute metro).1
  let s2 := s1.removeTransportMode demoMode
  let s3 := s2.1.addRoute tramLine
  (s3.1, s2.2, s3.2)

/-- C28, a consequence: after removing a mode and adding another one, both without error, the network lists two modes but
has lines of three, and it cannot be assigned. -/
theorem C28_blocks_assignment :
    busesRemoved.2 = (none, none) ∧ busesRemoved.1.modes = [demoMetro, tramLine.mode] ∧
    busesRemoved.1.routes.map (·.mode) = [demoMode, demoMetro, tramLine.mode] ∧
    serviceValid (demoCity 3) busesRemoved.1.routes 2 none demoPassenger [(1, [(2, 10)])] = .error .TransportNetwork ∧
    serviceValid (demoCity 3) (busesRemoved.1.routes.drop 1) 2 none demoPassenger [(1, [(2, 10)])] = .ok true := by
  refine ⟨?_, ?_, ?_, ?_, ?_⟩ <;> decide +kernel

/-- the third of the lines of the same way does not run: the hypotheses of C93 hold, and the labels are the same -/
example :
    IdleLines localLines localMore none (some [("a".toList, 1), ("b".toList, 1), ("c".toList, 0)]) ∧
    serviceLabels (demoCity 3) localLines 2 none demoPassenger 1 2 = some [some (63/50)] ∧
    serviceLabels (demoCity 3) localMore 2 (some [("a".toList, 1), ("b".toList, 1), ("c".toList, 0)]) demoPassenger 1 2 =
      some [some (63/50)] := by
  refine ⟨⟨by decide +kernel, by decide +kernel, by decide +kernel, by decide +kernel, by decide +kernel⟩, ?_, ?_⟩ <;>
    decide +kernel

/-- costs: with and without the second line, which does not run; when it runs the costs differ -/
example :
    IdleRoutes [⟨"a".toList, demoMode, [1, 2, 0], [0, 2, 1], [1, 2, 0], [0, 2, 1], .custom⟩]
      [⟨"a".toList, demoMode, [1, 2, 0], [0, 2, 1], [1, 2, 0], [0, 2, 1], .custom⟩, cornerLine]
      [("a".toList, 6), ("b".toList, 0)] ∧
    infrastructureCost (demoCity 3) [⟨"a".toList, demoMode, [1, 2, 0], [0, 2, 1], [1, 2, 0], [0, 2, 1], .custom⟩, cornerLine]
      [demoMode] [("a".toList, 6), ("b".toList, 0)] = 3/2 ∧
    infrastructureCost (demoCity 3) [⟨"a".toList, demoMode, [1, 2, 0], [0, 2, 1], [1, 2, 0], [0, 2, 1], .custom⟩]
      [demoMode] [("a".toList, 6), ("b".toList, 0)] = 3/2 := by
  refine ⟨⟨by decide +kernel, by decide +kernel, by decide +kernel, by decide +kernel⟩, ?_, ?_⟩ <;> decide +kernel

end Examples

end Sidermit
