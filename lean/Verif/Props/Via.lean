import Verif.Props.Service
import Verif.Proofs.Via

/-!
C79: going over a third node never pays.
-/

set_option linter.unusedSectionVars false

namespace Sidermit

section Generic

variable {K : Type} [Field K] [LinearOrder K] [IsStrictOrderedRing K] [PyMath K] {g : Graph K} {routes : List (Route K)}
  {sPTP : K} {freq : Option (Dict Str K)} {x : ExtGraph K} {pas : Passenger K} {i j k : CityNode K}

theorem walkEdges (hd : DistinctIds g) (hx : buildExtGraph g routes sPTP freq = .ok x) : WalkEdges x.nodes x.edges (sPTP / 60) := by
  obtain ⟨entries, h⟩ := extSpec hx
  have hmem : ∀ s, ENode.stop s ∈ allNodes x.nodes ↔ s ∈ stopsOf x.nodes := by
    intro s
    rw [mem_allNodes]
    simp
  refine ⟨?_, ?_, ?_, ?_, ?_⟩
  · intro e he c hc
    rw [h.mem_edges] at he
    rcases he with ⟨s, hs, rfl | rfl⟩ | ⟨m, _, _, rfl⟩ | ⟨m, _, _, rfl⟩ | ⟨m, _, p, _, rfl⟩
    · cases hc
      exact ⟨s, (hmem s).2 hs, rfl, rfl⟩
    · cases hc
    · cases hc
    · cases hc
    · cases hc
  · intro s hs
    exact (h.mem_edges _).2 (Or.inl ⟨s, (hmem s).1 hs, Or.inl rfl⟩)
  · intro s hs
    exact (h.mem_edges _).2 (Or.inl ⟨s, (hmem s).1 hs, Or.inr rfl⟩)
  · intro e he
    have hmode : ∀ n, (∃ f ∈ entries, f.node = n) → n.stop.mode = n.route.mode ∧ routes[n.ridx]? = some n.route :=
      fun n hn => ⟨((h.mem_node hd n).1 hn).2.2.1, ((h.mem_node hd n).1 hn).1⟩
    rw [h.mem_edges] at he
    rcases he with ⟨s, hs, rfl | rfl⟩ | ⟨m, _, _, rfl⟩ | ⟨m, _, _, rfl⟩ | ⟨m, hm, p, hp, rfl⟩
    · exact Or.inr (Or.inl ⟨_, rfl⟩)
    · exact Or.inr (Or.inr ⟨s, rfl⟩)
    · exact Or.inl rfl
    · exact Or.inl rfl
    · left
      have h1 := (h.ents.prev m hm p).1 hp
      have h2 := hmode p h1.1
      have h3 := hmode m.node ⟨m, hm, rfl⟩
      have hr : p.route = m.node.route := by
        have := h2.2
        rw [h1.2.1, h3.2] at this
        exact (Option.some.inj this).symm
      simp only [nodeMode]
      rw [h2.1, h3.1, hr]
  · intro e he ht
    rw [h.mem_edges] at he
    rcases he with ⟨s, hs, rfl | rfl⟩ | ⟨m, _, _, rfl⟩ | ⟨m, _, _, rfl⟩ | ⟨m, _, p, _, rfl⟩
    · cases ht
    · cases ht
    · cases ht
    · rfl
    · cases ht

/-- the stops of a node of the city: one for each mode that stops there -/
def stopsHere (x : ExtGraph K) (c : CityNode K) : List (StopNode K) := (stopsOf x.nodes).filter fun s => decide (s.city = c)

theorem label_at_origin {r : HResult K} {st : HState K} {o d : Option (CityNode K)}
    (hr : r.label = finalLabel ⟨x.nodes, x.edges, pas, o, d⟩ st) {c : CityNode K} (ho : o = some c) {s : StopNode K} (hs : s.city = c) :
    r.label (.stop s) = st.best (.stop s) + ((walkTime pas s : K) : WithTop K) := by
  rw [hr, finalLabel_eq]
  simp only [accessTime]
  rw [if_pos (by rw [hs, ho])]
  rfl

/-- C79: going over a third node never saves more than the transfer there costs: the expected generalised time from the best stop
of the origin is not larger than the one to any third node, plus the one from there, from any of their stops, plus one transfer
penalty. -/
theorem C79_via (hd : DistinctIds g) (ha : Admissible routes sPTP freq pas) (hx : buildExtGraph g routes sPTP freq = .ok x)
    (hij : i ≠ j) (hik : i ≠ k) {r₁ r₂ r : HResult K}
    (hr₁ : buildHyperpath ⟨x.nodes, x.edges, pas, some i, some k⟩ = .ok r₁)
    (hr₂ : buildHyperpath ⟨x.nodes, x.edges, pas, some k, some j⟩ = .ok r₂)
    (hr : buildHyperpath ⟨x.nodes, x.edges, pas, some i, some j⟩ = .ok r)
    {s t : StopNode K} (hs : s ∈ stopsHere x i) (ht : t ∈ stopsHere x k) :
    ∃ s' ∈ stopsHere x i, r.label (.stop s') ≤ r₁.label (.stop s) + ((sPTP / 60 : K) : WithTop K) + r₂.label (.stop t) := by
  have hτ : 0 ≤ sPTP / 60 := div_nonneg ha.penalty (by norm_num)
  have hw := walkEdges hd hx
  have hmem : ∀ s, ENode.stop s ∈ allNodes x.nodes ↔ s ∈ stopsOf x.nodes := by
    intro s
    rw [mem_allNodes]
    simp
  have hin : ∀ c s, s ∈ stopsHere x c ↔ ENode.stop s ∈ allNodes x.nodes ∧ s.city = c := by
    intro c s
    rw [hmem]
    unfold stopsHere
    simp
  have hg : Searchable (allNodes x.nodes) x.edges pas := ha.searchable hx
  obtain ⟨st₁, Q₁, hF₁, h₁⟩ := buildHyperpath_spec (h := ⟨x.nodes, x.edges, pas, some i, some k⟩) hg
  obtain ⟨st₂, Q₂, hF₂, h₂⟩ := buildHyperpath_spec (h := ⟨x.nodes, x.edges, pas, some k, some j⟩) hg
  rw [hr₁] at h₁
  rw [hr₂] at h₂
  cases h₁
  cases h₂
  rw [hin] at hs ht
  have hl₁ := label_at_origin (r := ⟨finalSucc st₁, finalLabel ⟨x.nodes, x.edges, pas, some i, some k⟩ st₁, st₁.freq⟩) rfl rfl hs.2
  have hl₂ := label_at_origin (r := ⟨finalSucc st₂, finalLabel ⟨x.nodes, x.edges, pas, some k, some j⟩ st₂, st₂.freq⟩) rfl rfl ht.2
  rw [hl₁, hl₂]
  by_cases hfin₁ : st₁.best (.stop s) = ⊤
  · exact ⟨s, (hin _ _).2 hs, by rw [hfin₁]; simp⟩
  by_cases hfin₂ : st₂.best (.stop t) = ⊤
  · exact ⟨s, (hin _ _).2 hs, by rw [hfin₂]; simp⟩
  have hd₁ := hF₁.all _ hs.1 hfin₁
  have hd₂ := hF₂.all _ ht.1 hfin₂
  rw [hF₁.inv.best_eq hd₁, hF₂.inv.best_eq hd₂]
  have hwalk : ∀ s, ENode.stop s ∈ allNodes x.nodes → 0 ≤ walkTime pas s := by
    intro s hs
    exact div_nonneg (mul_nonneg (hg.time _ (hw.enter s hs)) hg.pa) hg.pv.le
  have hpos₁ : 0 ≤ st₁.val (.stop s) :=
    (walk_le_strategy (i := i) (k := k) hg hw (strategy_of_best (h := ⟨x.nodes, x.edges, pas, some i, some k⟩) hg hF₁ _ _
      (le_refl _) hd₁)).1
  have hacc : ∀ s : StopNode K, s.city = i → accessTime pas (some i) (.stop s) = walkTime pas s := by
    intro s hs
    unfold accessTime
    simp only
    rw [if_pos (by rw [hs])]
    rfl
  rcases strategy_from hg hw hF₂ hij _ _ (le_refl _) hd₂ with ⟨_, hst⟩ | ⟨s', c, a1, a2, a3, a4⟩
  · have hck : Strategy x.edges pas (some i) (some j) (.city k) (walkTime pas t + st₂.val (.stop t)) := by
      refine Strategy.go ⟨.city k, .stop t, t.mode.tat / 60, none, .access⟩ ?_ (by simp) (by simpa using fun h => hik h.symm)
        (by simp) _ hst
      have := hw.enter t ht.1
      rwa [ht.2] at this
    obtain ⟨c, hc, _, hcs⟩ := strategy_via (i := i) (k := k) hg hw hτ hik hck
      (strategy_of_best (h := ⟨x.nodes, x.edges, pas, some i, some k⟩) hg hF₁ _ _ (le_refl _) hd₁)
      (fun s' h _ => by cases h; exact hs.1)
    refine ⟨s, (hin _ _).2 hs, (C39_optimal ha hx hr hcs).trans ?_⟩
    rw [hacc s hs.2, ← WithTop.coe_add, ← WithTop.coe_add, ← WithTop.coe_add, ← WithTop.coe_add, WithTop.coe_le_coe]
    linarith
  · refine ⟨s', (hin _ _).2 ⟨a1, a2⟩, (C39_optimal ha hx hr a3).trans ?_⟩
    rw [hacc s' a2, ← WithTop.coe_add, ← WithTop.coe_add, ← WithTop.coe_add, ← WithTop.coe_add, WithTop.coe_le_coe]
    have h1 := hwalk s hs.1
    have h2 := hwalk t ht.1
    linarith

/-- C79: trips can be chained: where there is a connection to a node and one from it, there is one over it. -/
theorem C79_connected (hd : DistinctIds g) (ha : Admissible routes sPTP freq pas) (hx : buildExtGraph g routes sPTP freq = .ok x)
    {a b c : Int} (hac : a ≠ c) (h1 : Connected x.nodes x.edges pas a b) (h2 : Connected x.nodes x.edges pas b c) :
    Connected x.nodes x.edges pas a c := by
  obtain ⟨ca, a1, a2, cb, b1, b2, s, s1, s2, c1, hs⟩ := h1
  obtain ⟨cb', b1', b2', cc, d1, d2, t, t1, t2, c2, ht⟩ := h2
  have hb := (nodesOk hd hx).ids cb' b1' cb b1 (b2'.trans b2.symm)
  subst hb
  by_cases hab : ca = cb'
  · subst hab
    exact ⟨ca, a1, a2, cc, d1, d2, t, t1, t2, c2, ht⟩
  have hac' : ca ≠ cc := fun h => hac (by rw [← a2, ← d2, h])
  have hstop : ∀ {s : StopNode K}, s ∈ stopsOf x.nodes → ENode.stop s ∈ allNodes x.nodes := by
    intro s hs
    rw [mem_allNodes]
    simpa using hs
  obtain ⟨r₁, hr₁⟩ := C37_terminates ha hx (some ca) (some cb')
  obtain ⟨r₂, hr₂⟩ := C37_terminates ha hx (some cb') (some cc)
  obtain ⟨r, hr⟩ := C37_terminates ha hx (some ca) (some cc)
  have hf₁ : r₁.label (.stop s) ≠ ⊤ := fun h => (C39_unreachable ha hx hr₁ (hstop s1)).1 h _ hs
  have hf₂ : r₂.label (.stop t) ≠ ⊤ := fun h => (C39_unreachable ha hx hr₂ (hstop t1)).1 h _ ht
  obtain ⟨s', hs', hle⟩ := C79_via hd ha hx hac' hab hr₁ hr₂ hr (s := s) (t := t)
    (by unfold stopsHere; simpa using ⟨s1, s2⟩) (by unfold stopsHere; simpa using ⟨t1, t2⟩)
  unfold stopsHere at hs'
  simp only [List.mem_filter, decide_eq_true_eq] at hs'
  have hfin : r.label (.stop s') ≠ ⊤ := by
    intro h
    rw [h, top_le_iff, WithTop.add_eq_top, WithTop.add_eq_top] at hle
    rcases hle with (h | h) | h
    · exact hf₁ h
    · exact absurd h (by simp)
    · exact hf₂ h
  obtain ⟨c, hc, _⟩ := C38_attained ha hx hr (hstop hs'.1) hfin
  exact ⟨ca, a1, a2, cc, d1, d2, s', hs'.1, hs'.2, c, hc⟩

/-- C79: so a network that connects every node with one hub, there and back, accepts every demand between different nodes, if its
modes suit the assignment. -/
theorem C79_hub (hd : DistinctIds g) (ha : Admissible routes sPTP freq pas) (hx : buildExtGraph g routes sPTP freq = .ok x)
    (hm : ModesAssignable (stopsOf x.nodes)) (hub : Int) {od : Dict Int (Dict Int K)}
    (hto : ∀ p ∈ od, ∀ q ∈ p.2, q.2 ≠ 0 → p.1 ≠ q.1)
    (hin : ∀ p ∈ od, p.1 ≠ hub → Connected x.nodes x.edges pas p.1 hub)
    (hout : ∀ p ∈ od, ∀ q ∈ p.2, q.1 ≠ hub → Connected x.nodes x.edges pas hub q.1) :
    networkValidator x.nodes x.edges pas od = .ok true := by
  refine (C42_validator ha hd hx od).1.2 ⟨?_, hm⟩
  intro p hp q hq h0
  by_cases h1 : p.1 = hub
  · rw [h1]
    exact hout p hp q hq fun h => hto p hp q hq h0 (by rw [h1, h])
  by_cases h2 : q.1 = hub
  · rw [h2]
    exact hin p hp h1
  exact C79_connected hd ha hx (hto p hp q hq h0) (hin p hp h1) (hout p hp q hq h2)

end Generic

/-! ## examples -/

section Examples

attribute [local instance] ratMath ratText

/-- two lines that meet at the CBD -/
def hubRoutes : List (Route ℚ) :=
  [⟨"a".toList, { demoMode with tat := 0 }, [1, 2, 0], [0, 2, 1], [1, 2, 0], [0, 2, 1], .custom⟩,
   ⟨"b".toList, { demoMode with tat := 0 }, [0, 4, 3], [3, 4, 0], [0, 4, 3], [3, 4, 0], .custom⟩]

theorem hubAdmissible : Admissible hubRoutes 2 none demoPassenger := by
  refine ⟨?_, by decide +kernel, by norm_num, demoAdmissible.root, demoAdmissible.pv, demoAdmissible.pw, demoAdmissible.pa⟩
  intro r hr
  simp only [hubRoutes, List.mem_cons, List.not_mem_nil, or_false] at hr
  rcases hr with rfl | rfl <;> constructor <;> norm_num [demoMode]

/-- the bound of C79 is attained: from 1 to the CBD, from there to 3, and from 1 to 3 with one transfer penalty of 2 minutes -/
example : serviceLabels (demoCity 3) hubRoutes 2 none demoPassenger 1 0 = some [some (7/4)] ∧
    serviceLabels (demoCity 3) hubRoutes 2 none demoPassenger 0 3 = some [some 1] ∧
    serviceLabels (demoCity 3) hubRoutes 2 none demoPassenger 1 3 = some [some (7/4 + 2/60 + 1)] := by decide +kernel

/-- and here it is not: over node 2 with two modes and a ring -/
example : serviceLabels (demoCity 3) demoRoutes 2 none demoPassenger 1 2 = some [some (63/50), some (1291/300)] ∧
    serviceLabels (demoCity 3) demoRoutes 2 none demoPassenger 2 4 = some [some (151/100)] ∧
    serviceLabels (demoCity 3) demoRoutes 2 none demoPassenger 1 4 = some [some (419/150), some (69/25)] := by decide +kernel

def hubExt : ExtGraph ℚ := ((buildExtGraph (demoCity 3) hubRoutes 2 none).toOption).getD ⟨[], []⟩

theorem hubBuilt : buildExtGraph (demoCity 3) hubRoutes 2 none = .ok hubExt := by decide +kernel

/-- the hypotheses of C79 hold for the peripheries of the two zones and the CBD -/
example : ∃ i ∈ Dict.keys hubExt.nodes, ∃ j ∈ Dict.keys hubExt.nodes, ∃ k ∈ Dict.keys hubExt.nodes, ∃ s ∈ stopsHere hubExt i,
    ∃ t ∈ stopsHere hubExt k, i.node.id = 1 ∧ j.node.id = 3 ∧ k.node.id = 0 ∧ i ≠ j ∧ i ≠ k ∧ DistinctIds (demoCity 3) ∧
      ∃ r₁ r₂ r, buildHyperpath ⟨hubExt.nodes, hubExt.edges, demoPassenger, some i, some k⟩ = .ok r₁ ∧
        buildHyperpath ⟨hubExt.nodes, hubExt.edges, demoPassenger, some k, some j⟩ = .ok r₂ ∧
        buildHyperpath ⟨hubExt.nodes, hubExt.edges, demoPassenger, some i, some j⟩ = .ok r := by
  have h : ∃ i ∈ Dict.keys hubExt.nodes, ∃ j ∈ Dict.keys hubExt.nodes, ∃ k ∈ Dict.keys hubExt.nodes, ∃ s ∈ stopsHere hubExt i,
    ∃ t ∈ stopsHere hubExt k, i.node.id = 1 ∧ j.node.id = 3 ∧ k.node.id = 0 ∧ i ≠ j ∧ i ≠ k := by decide +kernel
  obtain ⟨i, hi, j, hj, k, hk, s, hs, t, ht, h1, h2, h3, h4, h5⟩ := h
  exact ⟨i, hi, j, hj, k, hk, s, hs, t, ht, h1, h2, h3, h4, h5, by unfold DistinctIds; decide +kernel,
    (C37_terminates hubAdmissible hubBuilt _ _).choose, (C37_terminates hubAdmissible hubBuilt _ _).choose,
    (C37_terminates hubAdmissible hubBuilt _ _).choose, (C37_terminates hubAdmissible hubBuilt _ _).choose_spec,
    (C37_terminates hubAdmissible hubBuilt _ _).choose_spec, (C37_terminates hubAdmissible hubBuilt _ _).choose_spec⟩

/-- with the trips to and from the CBD accepted, all trips are -/
example : networkValidator hubExt.nodes hubExt.edges demoPassenger
    [(1, [(1, 0), (3, 5), (0, 2)]), (3, [(1, 7), (4, 1)]), (0, [(4, 3)])] = .ok true := by
  have hd : DistinctIds (demoCity 3) := by unfold DistinctIds; decide +kernel
  have h0 : networkValidator hubExt.nodes hubExt.edges demoPassenger
    [(1, [(0, 1)]), (3, [(0, 1)]), (0, [(1, 1), (3, 1), (4, 1)])] = .ok true := by decide +kernel
  obtain ⟨h1, h2⟩ := (C42_validator hubAdmissible hd hubBuilt _).1.1 h0
  simp only [List.mem_cons, List.not_mem_nil, or_false, forall_eq_or_imp, forall_eq] at h1
  refine C79_hub hd hubAdmissible hubBuilt h2 0 (by decide) ?_ ?_
  · simp only [List.mem_cons, List.not_mem_nil, or_false, forall_eq_or_imp, forall_eq]
    exact ⟨fun _ => h1.1 (by norm_num), fun _ => h1.2.1 (by norm_num), fun h => absurd rfl h⟩
  · simp only [List.mem_cons, List.not_mem_nil, or_false, forall_eq_or_imp, forall_eq]
    exact ⟨⟨fun _ => h1.2.2.1 (by norm_num), fun _ => h1.2.2.2.1 (by norm_num), fun h => absurd rfl h⟩,
      ⟨fun _ => h1.2.2.1 (by norm_num), fun _ => h1.2.2.2.2 (by norm_num)⟩, fun _ => h1.2.2.2.2 (by norm_num)⟩

end Examples

end Sidermit
