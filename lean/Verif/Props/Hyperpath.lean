import Verif.Props.ExtGraph
import Verif.Proofs.HyperNet

/-!
C37-C42: the hyperpath search, `hyper_path.py`, on the extended graph built by `extended_graph.py`.
-/

set_option linter.unusedSectionVars false

namespace Sidermit

section Generic

variable {K : Type} [Field K] [LinearOrder K] [IsStrictOrderedRing K] [PyMath K] {g : Graph K} {routes : List (Route K)}
  {sPTP : K} {freq : Option (Dict Str K)} {x : ExtGraph K} {pas : Passenger K}

/-- what the search needs: modes that run, frequencies and transfer penalty that are not negative, a passenger with a value
of time in vehicle and of waiting, and a square root that is not negative -/
structure Admissible (routes : List (Route K)) (sPTP : K) (freq : Option (Dict Str K)) (pas : Passenger K) : Prop where
  modes : ∀ r ∈ routes, r.mode.Runs
  freqs : ∀ r ∈ routes, 0 ≤ (frequencies routes freq).getD r.id 0
  penalty : 0 ≤ sPTP
  root : ∀ y : K, 0 ≤ PyMath.sqrt y
  pv : 0 < pas.pv
  pw : 0 < pas.pw
  pa : 0 ≤ pas.pa

theorem Admissible.searchable (ha : Admissible routes sPTP freq pas) (hx : buildExtGraph g routes sPTP freq = .ok x) :
    Searchable (allNodes x.nodes) x.edges pas := by
  obtain ⟨entries, h⟩ := extSpec hx
  exact h.searchable ha.modes ha.freqs ha.penalty ha.root ha.pv ha.pw ha.pa

theorem nodesOk (hd : DistinctIds g) (hx : buildExtGraph g routes sPTP freq = .ok x) : NodesOk x.nodes := by
  obtain ⟨entries, h⟩ := extSpec hx
  refine ⟨h.nodes.ok.keys, ?_, fun p hp q hq => ((h.nodes.city p hp).2 q hq).1⟩
  have hin : ∀ c ∈ Dict.keys x.nodes, c.In g := by
    intro c hc
    obtain ⟨s, hs, rfl⟩ := (h.nodes.mem_cities c).1 hc
    exact ((h.mem_stop hd s).1 hs).1
  intro c hc c' hc' hid
  have h1 := hin c hc
  have h2 := hin c' hc'
  unfold CityNode.In at h1 h2
  have hidx : c.idx = c'.idx := by
    have hl1 := (List.getElem?_eq_some_iff.1 h1).1
    have hl2 := (List.getElem?_eq_some_iff.1 h2).1
    unfold DistinctIds at hd
    have := (List.Nodup.getElem_inj_iff hd (i := c.idx) (j := c'.idx) (hi := by simpa using hl1) (hj := by simpa using hl2)).1 (by
      rw [List.getElem_map, List.getElem_map, (List.getElem?_eq_some_iff.1 h1).2, (List.getElem?_eq_some_iff.1 h2).2, hid])
    exact this
  rw [hidx, h2] at h1
  have hn := Option.some.inj h1
  cases c; cases c'
  simp_all

/-! ## C37: the search ends normally -/

/-- C37: for every origin and destination the search returns without exception. -/
theorem C37_terminates (ha : Admissible routes sPTP freq pas) (hx : buildExtGraph g routes sPTP freq = .ok x)
    (o d : Option (CityNode K)) : ∃ r, buildHyperpath ⟨x.nodes, x.edges, pas, o, d⟩ = .ok r := by
  obtain ⟨st, Q, _, h⟩ := buildHyperpath_spec (h := ⟨x.nodes, x.edges, pas, o, d⟩) (ha.searchable hx)
  exact ⟨_, h⟩

/-- C37: so do the expansion into elementary paths and, after the validation, the loop over all pairs. -/
theorem C37_paths_terminate (ha : Admissible routes sPTP freq pas) (hx : buildExtGraph g routes sPTP freq = .ok x)
    (o d : CityNode K) : ∃ r, hyperpathOD ⟨x.nodes, x.edges, pas, none, none⟩ o d = .ok r := by
  obtain ⟨r, paths, h, _⟩ := hyperpathOD_spec (h := ⟨x.nodes, x.edges, pas, none, none⟩) (ha.searchable hx) o d
  exact ⟨_, h⟩

/-! ## C38: labels are attained -/

/-- C38: a finite label is the expected generalised time of a strategy, plus the access time at the stops of the origin. -/
theorem C38_attained (ha : Admissible routes sPTP freq pas) (hx : buildExtGraph g routes sPTP freq = .ok x)
    {o d : Option (CityNode K)} {r : HResult K} (hr : buildHyperpath ⟨x.nodes, x.edges, pas, o, d⟩ = .ok r)
    {n : ENode K} (hn : n ∈ allNodes x.nodes) (hfin : r.label n ≠ ⊤) :
    ∃ c : K, Strategy x.edges pas o d n c ∧ r.label n = ((c + accessTime pas o n : K) : WithTop K) := by
  have hg : HInput.Good ⟨x.nodes, x.edges, pas, o, d⟩ := ha.searchable hx
  obtain ⟨st, Q, hF, h⟩ := buildHyperpath_spec hg
  rw [hr] at h
  cases h
  simp only at hfin ⊢
  rw [finalLabel_eq, WithTop.add_ne_top] at hfin
  have hin := hF.all n hn hfin.1
  refine ⟨st.val n, strategy_of_best hg hF _ _ (le_refl _) hin, ?_⟩
  rw [finalLabel_eq, hF.inv.best_eq hin, WithTop.coe_add]

/-! ## C39: labels are optimal -/

/-- C39: no strategy is cheaper than the label. -/
theorem C39_optimal (ha : Admissible routes sPTP freq pas) (hx : buildExtGraph g routes sPTP freq = .ok x)
    {o d : Option (CityNode K)} {r : HResult K} (hr : buildHyperpath ⟨x.nodes, x.edges, pas, o, d⟩ = .ok r)
    {n : ENode K} {c : K} (hs : Strategy x.edges pas o d n c) :
    r.label n ≤ ((c + accessTime pas o n : K) : WithTop K) := by
  have hg : HInput.Good ⟨x.nodes, x.edges, pas, o, d⟩ := ha.searchable hx
  obtain ⟨st, Q, hF, h⟩ := buildHyperpath_spec hg
  rw [hr] at h
  cases h
  simp only
  rw [finalLabel_eq, WithTop.coe_add]
  exact add_le_add_left (best_le_strategy hg hF hs) _

/-- C39: the label is infinite exactly when there is no strategy. -/
theorem C39_unreachable (ha : Admissible routes sPTP freq pas) (hx : buildExtGraph g routes sPTP freq = .ok x)
    {o d : Option (CityNode K)} {r : HResult K} (hr : buildHyperpath ⟨x.nodes, x.edges, pas, o, d⟩ = .ok r)
    {n : ENode K} (hn : n ∈ allNodes x.nodes) : r.label n = ⊤ ↔ ∀ c, ¬ Strategy x.edges pas o d n c := by
  constructor
  · intro h c hs
    have := C39_optimal ha hx hr hs
    rw [h] at this
    simp at this
  · intro h
    by_contra hfin
    obtain ⟨c, hc, _⟩ := C38_attained ha hx hr hn hfin
    exact h c hc

/-! ## C40: attractive lines -/

/-- C40: at a stop where lines are boarded, the successors are boarding edges of the stop with positive frequency, the
reported frequency is the sum of theirs, and the label is the expected time with the first vehicle of these lines. -/
theorem C40_lines (ha : Admissible routes sPTP freq pas) (hx : buildExtGraph g routes sPTP freq = .ok x)
    {o d : Option (CityNode K)} {r : HResult K} (hr : buildHyperpath ⟨x.nodes, x.edges, pas, o, d⟩ = .ok r)
    {n : ENode K} {b0 : EEdge K} (hb0 : b0 ∈ r.succ n) (ht0 : b0.type = .boarding) :
    ∃ s, n = .stop s ∧ (r.succ n).Nodup ∧
      (∀ b ∈ r.succ n, b ∈ x.edges ∧ b.type = .boarding ∧ b.i = n ∧ 0 < lineFreq b) ∧
      r.freq n = ((r.succ n).map lineFreq).sum ∧
      ∃ t : EEdge K → K, (∀ b ∈ r.succ n, r.label b.j = (t b : WithTop K)) ∧
        r.label n = ((((s.mode.theta * pas.pw / pas.pv + ((r.succ n).map fun b => lineFreq b * t b).sum) /
          ((r.succ n).map lineFreq).sum) + accessTime pas o n : K) : WithTop K) := by
  have hg : HInput.Good ⟨x.nodes, x.edges, pas, o, d⟩ := ha.searchable hx
  obtain ⟨st, Q, hF, h⟩ := buildHyperpath_spec hg
  rw [hr] at h
  cases h
  simp only at hb0 ⊢
  obtain ⟨h1, h2⟩ := finalSucc_spec hg hF n
  have hin : ∀ b ∈ finalSucc st n, b ∈ x.edges := fun b hb => (hF.inv.seen b (h1 b hb).1).1
  have hcase : finalSucc st n ≠ [] ∧ (finalSucc st n).Nodup ∧ (∀ b ∈ finalSucc st n, b.type = .boarding ∧ 0 < lineFreq b) ∧
       (∃ s, n = .stop s) ∧ st.freq n = sumF (finalSucc st n) ∧
       st.best n = (((waitAt pas n + sumFT (st.T ⟨x.nodes, x.edges, pas, o, d⟩) (finalSucc st n)) / sumF (finalSucc st n) : K) :
        WithTop K) := by
    rcases h2 with ⟨dd, _, rfl, _⟩ | ⟨_, hs⟩ | ⟨e, hs, heb, _⟩ | hh
    · obtain ⟨_, _, s, hs, _⟩ := hg.board b0 (hin b0 hb0) ht0
      rw [(h1 b0 hb0).2] at hs
      cases hs
    · rw [hs] at hb0; simp at hb0
    · rw [hs, List.mem_singleton] at hb0
      exact absurd (hb0 ▸ ht0) heb
    · exact hh
  obtain ⟨_, hnd, hl, ⟨s, rfl⟩, hfreq, hbest⟩ := hcase
  refine ⟨s, rfl, hnd, fun b hb => ⟨hin b hb, (hl b hb).1, (h1 b hb).2, (hl b hb).2⟩, hfreq, fun b => st.val b.j, ?_, ?_⟩
  · intro b hb
    rw [finalLabel_eq]
    obtain ⟨m, hm⟩ := hg.boarded b (hin b hb) (hl b hb).1
    have h0 : accessTime pas o b.j = 0 := by rw [hm]; rfl
    rw [h0, hF.inv.best_eq (hF.inv.seen b (h1 b hb).1).2.2.1]
    simp
  · rw [finalLabel_eq, hbest]
    have hT : sumFT (st.T ⟨x.nodes, x.edges, pas, o, d⟩) (finalSucc st (.stop s)) =
        ((finalSucc st (.stop s)).map fun b => lineFreq b * st.val b.j).sum := by
      unfold sumFT
      congr 1
      apply List.map_congr_left
      intro b hb
      have h0 : legTime pas d b = 0 := by
        unfold legTime
        rw [(hl b hb).1]
        exact (hg.board b (hin b hb) (hl b hb).1).1
      unfold HState.T
      rw [h0, zero_add]
    rw [hT, ← WithTop.coe_add]
    rfl

/-- C40: a line of positive frequency is among them exactly when its vehicle brings a smaller label. -/
theorem C40_attractive (ha : Admissible routes sPTP freq pas) (hx : buildExtGraph g routes sPTP freq = .ok x)
    {o d : Option (CityNode K)} {r : HResult K} (hr : buildHyperpath ⟨x.nodes, x.edges, pas, o, d⟩ = .ok r)
    {n : ENode K} {b0 : EEdge K} (hb0 : b0 ∈ r.succ n) (ht0 : b0.type = .boarding) {b : EEdge K} (hb : b ∈ x.edges)
    (ht : b.type = .boarding) (hbi : b.i = n) (hf : 0 < lineFreq b) :
    b ∈ r.succ n ↔ r.label b.j + ((accessTime pas o n : K) : WithTop K) < r.label n := by
  have hg : HInput.Good ⟨x.nodes, x.edges, pas, o, d⟩ := ha.searchable hx
  obtain ⟨st, Q, hF, h⟩ := buildHyperpath_spec hg
  rw [hr] at h
  cases h
  simp only at hb0 ⊢
  rw [finalSucc_attractive hg hF hb0 ht0 hb ht hbi hf, finalLabel_eq, finalLabel_eq]
  obtain ⟨m, hm⟩ := hg.boarded b hb ht
  have h0 : accessTime pas o b.j = 0 := by rw [hm]; rfl
  rw [h0, WithTop.coe_zero, add_zero]
  exact (WithTop.add_lt_add_iff_right WithTop.coe_ne_top).symm

/-- C40: at every other node with a finite label, but the destination, there is one successor, and the label is its time
plus the label of its end. -/
theorem C40_legs (ha : Admissible routes sPTP freq pas) (hx : buildExtGraph g routes sPTP freq = .ok x)
    {o d : Option (CityNode K)} {r : HResult K} (hr : buildHyperpath ⟨x.nodes, x.edges, pas, o, d⟩ = .ok r)
    {n : ENode K} (hfin : r.label n ≠ ⊤) (hd : some n ≠ d.map .city) (hb : ∀ b ∈ r.succ n, b.type ≠ .boarding) :
    ∃ e, r.succ n = [e] ∧ e ∈ x.edges ∧ e.i = n ∧ r.label e.j ≠ ⊤ ∧
      r.label n + ((accessTime pas o e.j : K) : WithTop K) =
        ((legTime pas d e : K) : WithTop K) + r.label e.j + ((accessTime pas o n : K) : WithTop K) := by
  have hg : HInput.Good ⟨x.nodes, x.edges, pas, o, d⟩ := ha.searchable hx
  obtain ⟨st, Q, hF, h⟩ := buildHyperpath_spec hg
  rw [hr] at h
  cases h
  simp only at hb hfin ⊢
  rw [finalLabel_eq, WithTop.add_ne_top] at hfin
  obtain ⟨h1, h2⟩ := finalSucc_spec hg hF n
  rcases h2 with ⟨dd, hdd, rfl, _⟩ | ⟨ht, hs⟩ | ⟨e, hs, heb, hbest⟩ | ⟨hne, _, hh, _⟩
  · simp only at hdd
    rw [hdd] at hd
    exact absurd rfl hd
  · exact absurd ht hfin.1
  · have he : e ∈ finalSucc st n := by rw [hs]; simp
    have hjd := (hF.inv.seen e (h1 e he).1).2.2.1
    have hbj := hF.inv.best_eq hjd
    refine ⟨e, hs, (hF.inv.seen e (h1 e he).1).1, (h1 e he).2, ?_, ?_⟩
    · rw [finalLabel_eq, WithTop.add_ne_top]
      exact ⟨hF.inv.fin _ hjd, WithTop.coe_ne_top⟩
    · rw [finalLabel_eq, finalLabel_eq, hbest, hbj]
      simp only [← WithTop.coe_add]
      unfold HState.T
      congr 1
      ring
  · obtain ⟨b, hbm⟩ := List.exists_mem_of_ne_nil _ hne
    exact absurd (hh b hbm).1 (hb b hbm)

/-! ## C41: elementary paths -/

/-- C41: `get_hyperpath_OD` lists, for exactly the stops of the origin with a finite label, every way along successors to
the destination, each once. -/
theorem C41_paths (ha : Admissible routes sPTP freq pas) (hd : DistinctIds g) (hx : buildExtGraph g routes sPTP freq = .ok x)
    {o d : CityNode K} {r : HResult K} {paths : Dict (StopNode K) (List (List (ENode K)))}
    (h : hyperpathOD ⟨x.nodes, x.edges, pas, none, none⟩ o d = .ok (r, paths)) :
    (∀ s, s ∈ Dict.keys paths ↔ s ∈ stopsOf x.nodes ∧ s.city = o ∧ r.label (.stop s) ≠ ⊤) ∧
    (∀ s l, (s, l) ∈ paths → l ≠ [] ∧ l.Nodup ∧
      ∀ p, p ∈ l ↔ ∃ q, Leads r.succ (.city d) (.stop s) q ∧ p = .city o :: .stop s :: q) := by
  obtain ⟨r', paths', h1, h2, h3, h4⟩ := hyperpathOD_spec (h := ⟨x.nodes, x.edges, pas, none, none⟩) (ha.searchable hx) o d
  rw [h1] at h
  cases h
  refine ⟨?_, h4⟩
  intro s
  rw [h3, List.mem_filter, mem_stopsAt (nodesOk hd hx)]
  simp only [decide_eq_true_eq, and_assoc]

/-- C41: every path starts at the origin and the stop, ends at the destination, follows edges of the graph that are
successors, and visits no node twice. -/
theorem C41_well_formed (ha : Admissible routes sPTP freq pas) (hx : buildExtGraph g routes sPTP freq = .ok x)
    {o d : CityNode K} {r : HResult K} {paths : Dict (StopNode K) (List (List (ENode K)))}
    (h : hyperpathOD ⟨x.nodes, x.edges, pas, none, none⟩ o d = .ok (r, paths))
    {s : StopNode K} {l : List (List (ENode K))} (hs : (s, l) ∈ paths) {p : List (ENode K)} (hp : p ∈ l) :
    [.city o, .stop s] <+: p ∧ p.getLast? = some (.city d) ∧ p.Nodup ∧
      List.IsChain (fun a b => ∃ e ∈ x.edges, e ∈ r.succ a ∧ e.i = a ∧ e.j = b) p.tail := by
  have hg : HInput.Good ⟨x.nodes, x.edges, pas, some o, some d⟩ := ha.searchable hx
  obtain ⟨r', paths', h1, h2, h3, h4⟩ := hyperpathOD_spec (h := ⟨x.nodes, x.edges, pas, none, none⟩) (ha.searchable hx) o d
  rw [h1] at h
  cases h
  obtain ⟨st, Q, hF, hb⟩ := buildHyperpath_spec hg
  simp only at h2
  rw [h2] at hb
  have hsucc : r.succ = finalSucc st := by cases hb; rfl
  obtain ⟨q, hq, rfl⟩ := ((h4 s l hs).2.2 p).1 hp
  have hedge : ∀ a, ∀ e ∈ r.succ a, e ∈ x.edges ∧ e.i = a ∧ e.j ≠ .city o := by
    intro a e he
    rw [hsucc] at he
    obtain ⟨hQ, hei⟩ := (finalSucc_spec hg hF a).1 e he
    obtain ⟨g1, g2, _⟩ := hF.inv.seen e hQ
    refine ⟨g1, hei, ?_⟩
    intro hh
    exact g2.2 (by rw [hh]; rfl)
  refine ⟨List.prefix_append [.city o, .stop s] q, ?_, ?_, ?_⟩
  · rw [List.getLast?_cons_cons]
    exact hq.getLast
  · rw [List.nodup_cons]
    refine ⟨?_, (hq.rank_lt (rank := rankOf ⟨x.nodes, x.edges, pas, some o, some d⟩ st) (by
      rw [hsucc]; exact rankOf_lt hg hF)).2⟩
    intro hm
    rcases List.mem_cons.1 hm with hm | hm
    · cases hm
    · obtain ⟨a, e, he, hej⟩ := hq.mem _ hm
      exact (hedge a e he).2.2 hej
  · simp only [List.tail_cons]
    refine hq.chain.imp ?_
    rintro a b ⟨e, he, rfl⟩
    exact ⟨e, (hedge a e he).1, he, (hedge a e he).2.1, rfl⟩

/-- C41: after the validation `get_all_hyperpaths` holds one result for each cell with trips, in order. -/
theorem C41_all_pairs (ha : Admissible routes sPTP freq pas) (hd : DistinctIds g)
    (hx : buildExtGraph g routes sPTP freq = .ok x) (od : Dict Int (Dict Int K)) :
    (networkValidator x.nodes x.edges pas od = .ok true → ∃ l, allHyperpaths x.nodes x.edges pas od = .ok l ∧
      List.Forall₂ (fun q e => e.origin ∈ Dict.keys x.nodes ∧ e.origin.node.id = q.1 ∧ e.dest ∈ Dict.keys x.nodes ∧
        e.dest.node.id = q.2.1 ∧ e.vij = q.2.2 ∧
        hyperpathOD ⟨x.nodes, x.edges, pas, none, none⟩ e.origin e.dest = .ok (e.res, e.paths))
        (od.flatMap fun p => (p.2.filter fun q => decide (q.2 ≠ 0)).map fun q => (p.1, q.1, q.2)) l) ∧
    (∀ err, networkValidator x.nodes x.edges pas od = .error err → allHyperpaths x.nodes x.edges pas od = .error err) :=
  allHyperpaths_eq (ha.searchable hx) (nodesOk hd hx) od

/-! ## C42: validation -/

/-- C42: the network is accepted exactly when every cell with trips has a strategy from some stop of its origin to its
destination and the modes suit the assignment. -/
theorem C42_validator (ha : Admissible routes sPTP freq pas) (hd : DistinctIds g)
    (hx : buildExtGraph g routes sPTP freq = .ok x) (od : Dict Int (Dict Int K)) :
    (networkValidator x.nodes x.edges pas od = .ok true ↔
      (∀ p ∈ od, ∀ q ∈ p.2, q.2 ≠ 0 → Connected x.nodes x.edges pas p.1 q.1) ∧ ModesAssignable (stopsOf x.nodes)) ∧
    (networkValidator x.nodes x.edges pas od ≠ .ok true → networkValidator x.nodes x.edges pas od = .error .AddMode ∨
      networkValidator x.nodes x.edges pas od = .error .TransportNetwork) := by
  rcases networkValidator_eq (ha.searchable hx) (nodesOk hd hx) od with ⟨h1, h2⟩ | ⟨⟨err, h1, h2⟩, h3⟩
  · exact ⟨⟨fun _ => h2, fun _ => h1⟩, fun hh => absurd h1 hh⟩
  · refine ⟨⟨fun hh => ?_, fun hh => absurd hh h3⟩, fun _ => ?_⟩
    · rw [h2] at hh; cases hh
    · simp only [List.mem_cons, List.not_mem_nil, or_false] at h1
      rcases h1 with rfl | rfl
      · exact Or.inl h2
      · exact Or.inr h2

/-- C42: trips from a node to itself are never accepted, whatever the network. -/
theorem C42_same_node_rejected (ha : Admissible routes sPTP freq pas) (hd : DistinctIds g)
    (hx : buildExtGraph g routes sPTP freq = .ok x) {od : Dict Int (Dict Int K)} {o : Int} {row : Dict Int K} {v : K}
    (hrow : (o, row) ∈ od) (hv : (o, v) ∈ row) (h0 : v ≠ 0) : networkValidator x.nodes x.edges pas od ≠ .ok true := by
  intro h
  have hg := ha.searchable hx
  obtain ⟨co, a1, a2, cd, b1, b2, s, _, _, c, hs⟩ := (((C42_validator ha hd hx od).1.1 h).1 (o, row) hrow (o, v) hv h0)
  have hcc : co = cd := (nodesOk hd hx).ids co a1 cd b1 (a2.trans b2.symm)
  subst hcc
  have key : ∀ {n c}, Strategy x.edges pas (some co) (some co) n c → n = .city co := by
    intro n c h
    induction h with
    | arrive d hd => rw [Option.some.inj hd]
    | go e he hb hi hj c hc ih => exact absurd (by rw [ih]; rfl) hj
    | wait s l hne _ hl _ ih =>
      obtain ⟨p, hp⟩ := List.exists_mem_of_ne_nil _ hne
      obtain ⟨n, hn⟩ := hg.boarded _ (hl p hp).1 (hl p hp).2.1
      have := ih p hp
      rw [hn] at this
      cases this
  cases key hs

end Generic

/-! ## examples -/

section Examples

attribute [local instance] ratMath ratText

/-- values of time of the documentation, in round numbers -/
def demoPassenger : Passenger ℚ := ⟨4, 2, 4, 6, 16, 2, 4, 6, 16⟩

theorem demoAdmissible : Admissible demoRoutes 2 none demoPassenger := by
  refine ⟨?_, ?_, by norm_num, ?_, by norm_num [demoPassenger], by norm_num [demoPassenger], by norm_num [demoPassenger]⟩
  · have : ∀ r ∈ demoRoutes, 0 ≤ r.mode.tat ∧ 0 < r.mode.theta ∧ 0 < r.mode.v ∧ 0 < (r.mode.d : ℚ) := by decide +kernel
    exact fun r hr => ⟨(this r hr).1, (this r hr).2.1, (this r hr).2.2.1, (this r hr).2.2.2⟩
  · decide +kernel
  · intro y
    exact div_nonneg (Nat.cast_nonneg _) (Nat.cast_nonneg _)

/-- the extended graph of the example -/
def demoExt : ExtGraph ℚ := (buildExtGraph (demoCity 3) demoRoutes 2 none).toOption.getD ⟨[], []⟩

example : buildExtGraph (demoCity 3) demoRoutes 2 none = .ok demoExt := by decide +kernel

/-- the search for trips from node `o` to node `d` -/
def demoSearch (o d : Int) : Py (HResult ℚ) :=
  buildHyperpath ⟨demoExt.nodes, demoExt.edges, demoPassenger, cityOf demoExt.nodes o, cityOf demoExt.nodes d⟩

/-- mode, label, number of successors and frequency at the stops of the origin -/
def demoLabels (o d : Int) : Option (List (Str × Option ℚ × Nat × ℚ)) :=
  (demoSearch o d).toOption.map fun r => (stopsAt demoExt.nodes (cityOf demoExt.nodes o)).map fun s =>
    (s.mode.name, (match r.label (.stop s) with | ⊤ => none | .some v => some v), (r.succ (.stop s)).length, r.freq (.stop s))

/-- labels of two modes; finite, so C38, C40 and C41 apply -/
example : demoLabels 1 4 = some [("bus".toList, some (419/150), 1, 1), ("metro".toList, some (69/25), 1, 1/2)] := by
  decide +kernel

example : demoLabels 2 1 = some [("bus".toList, some (63/50), 1, 1)] := by decide +kernel

/-- the lengths of the elementary paths of each stop -/
def demoPaths (o d : Int) : Option (List (Str × List Nat)) :=
  match cityOf demoExt.nodes o, cityOf demoExt.nodes d with
  | some co, some cd => (hyperpathOD ⟨demoExt.nodes, demoExt.edges, demoPassenger, none, none⟩ co cd).toOption.map fun r =>
      r.2.map fun p => (p.1.mode.name, p.2.map List.length)
  | _, _ => none

example : demoPaths 1 4 = some [("bus".toList, [9]), ("metro".toList, [6])] := by decide +kernel

/-- a matrix that is accepted and one that is not: no line stops at node 3 -/
example : networkValidator demoExt.nodes demoExt.edges demoPassenger [(1, [(4, 5), (2, 3)]), (4, [(1, 4), (3, 0)])] = .ok true := by
  decide +kernel

example : networkValidator demoExt.nodes demoExt.edges demoPassenger [(1, [(4, 5), (3, 3)])] = .error .TransportNetwork := by
  decide +kernel

/-- trips inside a node -/
example : networkValidator demoExt.nodes demoExt.edges demoPassenger [(1, [(1, 5)])] = .error .TransportNetwork := by
  decide +kernel

/-- a line and an express line of the same mode, and a slow line over the other side -/
def twoLines (theta : ℚ) : List (Route ℚ) :=
  let m := { demoMode with theta := theta }
  [⟨"a".toList, m, [1, 2, 0], [0, 2, 1], [1, 2, 0], [0, 2, 1], .custom⟩,
   ⟨"b".toList, m, [1, 2, 0], [0, 2, 1], [1, 0], [0, 1], .custom⟩,
   ⟨"c".toList, m, [1, 0], [0, 1], [1, 0], [0, 1], .custom⟩]

/-- the search on them: label, lines and frequency at the stop of node 1 -/
def twoLinesSearch (theta : ℚ) : Py (List (Option ℚ × List ℚ × ℚ)) := do
  let x ← buildExtGraph (demoCity 3) (twoLines theta) 2 none
  let r ← buildHyperpath ⟨x.nodes, x.edges, demoPassenger, cityOf x.nodes 1, cityOf x.nodes 0⟩
  return (stopsAt x.nodes (cityOf x.nodes 1)).map fun s =>
    ((match r.label (.stop s) with | ⊤ => none | .some v => some v), (r.succ (.stop s)).map lineFreq, r.freq (.stop s))

/-- three attractive lines -/
example : twoLinesSearch (1/2) = .ok [(some (82/75), [1, 1, 1], 3)] := by decide +kernel

/-- a passenger without value of time in the vehicle -/
def idlePassenger : Py (Passenger ℚ) :=
  Passenger.new (some 4) (some 0) (some 4) (some 6) (some 16) (some 2) (some 4) (some 6) (some 16)

/-- C37: `pv > 0` is needed: the constructor of passengers accepts `pv = 0`, and then the search ends with a division by
zero. -/
theorem C37_no_value_of_time_fails : ∃ p : Passenger ℚ, idlePassenger = .ok p ∧ p.pv = 0 ∧
    buildHyperpath ⟨demoExt.nodes, demoExt.edges, p, cityOf demoExt.nodes 1, cityOf demoExt.nodes 0⟩ =
      .error .ZeroDivisionError := by
  refine ⟨⟨4, 0, 4, 6, 16, 2, 4, 6, 16⟩, by decide +kernel, rfl, ?_⟩
  have : (buildHyperpath ⟨demoExt.nodes, demoExt.edges, ⟨4, 0, 4, 6, 16, 2, 4, 6, 16⟩, cityOf demoExt.nodes 1,
      cityOf demoExt.nodes 0⟩).map (fun _ => ()) = .error .ZeroDivisionError := by decide +kernel
  revert this
  generalize buildHyperpath (⟨demoExt.nodes, demoExt.edges, ⟨4, 0, 4, 6, 16, 2, 4, 6, 16⟩, cityOf demoExt.nodes 1,
      cityOf demoExt.nodes 0⟩ : HInput ℚ) = r
  intro h
  cases r with
  | ok v => cases h
  | error e => cases h; rfl

end Examples

/-- C37: over the real numbers the condition on the square root holds -/
example (y : ℝ) : 0 ≤ PyMath.sqrt y := Real.sqrt_nonneg y

end Sidermit
