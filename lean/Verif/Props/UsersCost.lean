import Verif.Props.Assignment
import Verif.Proofs.Users

/-!
C52, C53, C58, C59: resources and cost of the users, `users_cost.py`.
-/

set_option linter.unusedSectionVars false

namespace Sidermit

section Generic

variable {K : Type} [Field K] [LinearOrder K] [IsStrictOrderedRing K] [PyMath K] {g : Graph K} {routes : List (Route K)}
  {sPTP : K} {freq : Option (Dict Str K)} {x : ExtGraph K} {pas : Passenger K}

/-! ## what the search gives, for the costs -/

/-- the previous route node is the one before in the direction of travel -/
theorem prevOf_eq (hd : DistinctIds g) (hx : buildExtGraph g routes sPTP freq = .ok x) {p n : RouteNode K}
    (hp : p.Wanted g routes) (hn : n.Wanted g routes) (h : p.Precedes n) : prevOf x.nodes n = some p := by
  obtain ⟨entries, hs⟩ := extSpec hx
  obtain ⟨e, he, rfl⟩ := (hs.mem_node hd n).2 hn
  have hprev := (hs.ents.prev e he p).2 ⟨(hs.mem_node hd p).2 hp, h⟩
  unfold prevOf
  have he' : e ∈ entriesOf x.nodes := hs.nodes.perm.mem_iff.2 he
  cases hf : (entriesOf x.nodes).find? fun e' => decide (e'.node = e.node) with
  | none => exact absurd (List.find?_eq_none.1 hf e he') (by simp)
  | some e2 =>
    have h2 := List.find?_some hf
    have h3 := hs.nodes.perm.mem_iff.1 (List.mem_of_find?_eq_some hf)
    simp only [decide_eq_true_eq] at h2
    have : e2 = e := hs.ents.inj e2 h3 e he (by rw [h2]) (by rw [h2]) (by rw [h2])
    subst this
    exact hprev

/-- a node where the trips of the pair pass -/
def Passes (x : ExtGraph K) (p : ODResult K × Dict (StopNode K) K) (y : ENode K) : Prop :=
  Reached p y ∧ ∀ n, y = .route n → (∀ e' ∈ p.1.res.succ y, ∀ s, e'.j ≠ .stop s) ∨ prevOf x.nodes n ≠ none

theorem LinesRun.passes (ha : Admissible routes sPTP freq pas) (hd : DistinctIds g)
    (hx : buildExtGraph g routes sPTP freq = .ok x) {p : ODResult K × Dict (StopNode K) K} (he : p.1.Computed x pas)
    {f : Dict Str K} (hf : LinesRun f p) :
    Net f p.1.res.succ p.1.dest (Passes x p) ∧ ∀ s ∈ Dict.keys p.1.paths, stopTrips p s ≠ 0 → Passes x p (.stop s) := by
  obtain ⟨_, _, hedge, ⟨rank, hr, _⟩, _⟩ := he.reach ha hd hx
  obtain ⟨hN, hk⟩ := hf.net ha hd hx he
  refine ⟨⟨?_, fun y hy => hN.split y hy.1, fun s hy => hN.board s hy.1⟩, fun s hs h0 => ⟨hk s hs h0, fun n hn => by cases hn⟩⟩
  intro y hy e' he' hns
  refine ⟨hN.next y hy.1 e' he' hns, ?_⟩
  intro n hn
  obtain ⟨hex, hei⟩ := hedge y e' he'
  rcases edge_cases hd hx hex with ⟨_, s, h5, h6⟩ | ⟨_, s, h5, h6⟩ | ⟨_, m, hm, h5, h6⟩ | ⟨_, m, hm, h5, h6⟩ | ⟨_, p, m, hp, hm, hpm, h5, h6⟩
  · rw [hn] at h6; cases h6
  · rw [hn] at h6; cases h6
  · left
    intro e2 he2 s hs
    obtain ⟨hex2, hei2⟩ := hedge _ e2 he2
    have hmn : m = n := by rw [hn] at h6; exact (ENode.route.inj h6).symm
    have hback : e2.j = y := by
      rcases edge_cases hd hx hex2 with ⟨_, s, h7, h8⟩ | ⟨_, s, h7, h8⟩ | ⟨_, m2, hm2, h7, h8⟩ | ⟨_, m2, hm2, h7, h8⟩ | ⟨_, p, m2, hp, hm2, hpm, h7, h8⟩
      · rw [hei2, hn] at h7; cases h7
      · rw [hei2, hn] at h7; cases h7
      · rw [hei2, hn] at h7; cases h7
      · rw [hei2, hn] at h7
        rw [h8, ← hei, h5, hmn, ENode.route.inj h7]
      · rw [h8] at hs; cases hs
    have r1 := hr y e' he'
    have r2 := hr _ e2 he2
    rw [hback] at r2
    omega
  · rw [hn] at h6; cases h6
  · right
    rw [hn] at h6
    rw [ENode.route.inj h6, prevOf_eq hd hx hp hm hpm]
    simp

theorem ODResult.Computed.rides (ha : Admissible routes sPTP freq pas) (hd : DistinctIds g)
    (hx : buildExtGraph g routes sPTP freq = .ok x) {p : ODResult K × Dict (StopNode K) K} (he : p.1.Computed x pas) :
    Rides x p.1.res.succ (Passes x p) := by
  obtain ⟨_, _, hedge, _⟩ := he.reach ha hd hx
  refine ⟨?_, ?_⟩
  · intro n hn e' he' s hs
    exact (hn.2 n rfl).resolve_left fun h => h e' he' s hs
  · intro s e' he' n hn
    obtain ⟨hex, hei⟩ := hedge _ e' he'
    rcases edge_cases hd hx hex with ⟨_, s, h5, h6⟩ | ⟨_, s, h5, h6⟩ | ⟨_, m, hm, h5, h6⟩ | ⟨_, m, hm, h5, h6⟩ | ⟨_, p, m, hp, hm, hpm, h5, h6⟩
    · rw [hn] at h6; cases h6
    · rw [hn] at h6; cases h6
    · rw [hn] at h6
      rw [ENode.route.inj h6]
      exact (ha.modes m.route (List.mem_of_getElem? hm.1)).lines.ne'
    · rw [hn] at h6; cases h6
    · rw [hei] at h5; cases h5

theorem Loading.users {N : Nat} {f : Dict Str K} {l : List (ODResult K × Dict (StopNode K) K)} (h : Loading x pas N f l)
    (ha : Admissible routes sPTP freq pas) (hd : DistinctIds g) (hx : buildExtGraph g routes sPTP freq = .ok x) {vp : K}
    (hvp : vp ≠ 0) : ∀ p ∈ l, UserOk N f x vp p := by
  intro p hp
  obtain ⟨hk, hin, _, ⟨rank, hr, hrN⟩, _⟩ := (h.computed p hp).reach ha hd hx
  obtain ⟨hN, hk'⟩ := (h.run p hp).passes ha hd hx (h.computed p hp)
  refine ⟨⟨_, hN, (h.computed p hp).rides ha hd hx, fun s hs => ⟨hk' s hs, (hk s hs).2.1⟩⟩,
    ⟨rank, hr, fun s hs => (hrN s hs).trans_le h.rounds⟩, ?_⟩
  intro s hs
  obtain ⟨entries, hsp⟩ := extSpec hx
  obtain ⟨_, r, hr, hm, _⟩ := (hsp.mem_stop hd s).1 (hin s hs).1
  have := (ha.modes r hr).lines
  rw [hm] at this
  exact mul_ne_zero (mul_ne_zero (by norm_num) hvp) this.ne'

/-- what is known of the elements of a pair -/
theorem Loading.item {N : Nat} {f : Dict Str K} {l : List (ODResult K × Dict (StopNode K) K)} (h : Loading x pas N f l)
    (ha : Admissible routes sPTP freq pas) (hd : DistinctIds g) (hx : buildExtGraph g routes sPTP freq = .ok x)
    {p : ODResult K × Dict (StopNode K) K} (hp : p ∈ l) {w : Item K} (hw : w ∈ stopsTrace N f p (Dict.keys p.1.paths)) :
    Passes x p w.i ∧ ∃ e ∈ p.1.res.succ w.i, e ∈ x.edges ∧ e.i = w.i ∧ e.j = w.j := by
  obtain ⟨hk, _, hedge, _⟩ := (h.computed p hp).reach ha hd hx
  obtain ⟨hN, hk'⟩ := (h.run p hp).passes ha hd hx (h.computed p hp)
  obtain ⟨s, hs, hw⟩ := List.mem_flatMap.1 hw
  obtain ⟨⟨h1, e, h2, h3⟩, h4⟩ := stopTrace_on hN (hk' s hs) (hk s hs).2.1 hw
  exact ⟨h1, e, h2, (hedge _ e h2).1, (hedge _ e h2).2, h3⟩

theorem walkW_nonneg (ha : Admissible routes sPTP freq pas) (hd : DistinctIds g)
    (hx : buildExtGraph g routes sPTP freq = .ok x) {e : EEdge K} (he : e ∈ x.edges) : 0 ≤ walkW e.i e.j := by
  by_cases ht : e.type = .access
  · obtain ⟨s, ⟨_, r, hr, hm, _⟩, h⟩ := ((C35_edges hd hx e).1).1 ⟨he, ht⟩
    have := (ha.modes r hr).tat
    rw [hm] at this
    rcases h with rfl | rfl
    · exact div_nonneg this (by norm_num)
    · exact div_nonneg this (by norm_num)
  · rcases edge_cases hd hx he with ⟨h, _⟩ | ⟨h, _⟩ | ⟨_, m, hm, h5, h6⟩ | ⟨_, m, hm, h5, h6⟩ | ⟨_, p, m, hp, hm, hpm, h5, h6⟩
    · exact absurd h ht
    · exact absurd h ht
    all_goals rw [h5, h6]; exact le_refl _

/-- with one mode nobody walks between stops -/
theorem no_walks {N : Nat} {f : Dict Str K} {l : List (ODResult K × Dict (StopNode K) K)} (h : Loading x pas N f l)
    (ha : Admissible routes sPTP freq pas) (hd : DistinctIds g) (hx : buildExtGraph g routes sPTP freq = .ok x)
    (hm : ∀ r ∈ routes, ∀ r' ∈ routes, r.mode = r'.mode)
    {p : ODResult K × Dict (StopNode K) K} (hp : p ∈ l) {w : Item K} (hw : w ∈ stopsTrace N f p (Dict.keys p.1.paths)) :
    (∀ c, w.i ≠ .city c) ∧ ∀ c, w.j ≠ .city c := by
  obtain ⟨hk, _, hedge, ⟨rank, hr, _⟩, _⟩ := (h.computed p hp).reach ha hd hx
  obtain ⟨hN, hk'⟩ := (h.run p hp).net ha hd hx (h.computed p hp)
  have hmode : ∀ e ∈ x.edges, ∀ s, (e.i = .stop s ∧ e.j = .city s.city ∨ e.i = .city s.city ∧ e.j = .stop s) →
      ∃ r ∈ routes, r.mode = s.mode := by
    intro e he s hs
    have ht : e.type = .access := by
      rcases edge_cases hd hx he with ⟨ht, _⟩ | ⟨ht, _⟩ | ⟨_, m, hm, h5, h6⟩ | ⟨_, m, hm, h5, h6⟩ | ⟨_, p, m, hp, hm, hpm, h5, h6⟩
      · exact ht
      · exact ht
      all_goals (rw [h5, h6] at hs; rcases hs with ⟨h7, h8⟩ | ⟨h7, h8⟩ <;> first | cases h7; done | cases h8)
    obtain ⟨s', ⟨_, r, hr, hrm, _⟩, h'⟩ := ((C35_edges hd hx e).1).1 ⟨he, ht⟩
    refine ⟨r, hr, ?_⟩
    rw [hrm]
    rcases h' with rfl | rfl
    · rcases hs with ⟨h7, _⟩ | ⟨_, h7⟩
      · cases h7
      · rw [ENode.stop.inj h7]
    · rcases hs with ⟨h7, _⟩ | ⟨_, h7⟩
      · rw [ENode.stop.inj h7]
      · cases h7
  -- from a stop the city is not reached
  have hnc : ∀ y, Reached p y → (∀ c, y ≠ .city c) → ∀ e ∈ p.1.res.succ y, ∀ c, e.j ≠ .city c := by
    intro y hy hyc e he c hc
    obtain ⟨hex, hei⟩ := hedge y e he
    have hs : ∃ s : StopNode K, e.i = .stop s ∧ e.j = .city s.city := by
      rcases edge_cases hd hx hex with ⟨_, s, h5, h6⟩ | ⟨_, s, h5, h6⟩ | ⟨_, m, hm, h5, h6⟩ | ⟨_, m, hm, h5, h6⟩ | ⟨_, p, m, hp, hm, hpm, h5, h6⟩
      · rw [hc] at h6; cases h6
      · exact ⟨s, h5, h6⟩
      · rw [hc] at h6; cases h6
      · rw [hc] at h6; cases h6
      · rw [hc] at h6; cases h6
    obtain ⟨s, h5, h6⟩ := hs
    have hlive := hN.next y hy e he (by rw [h6]; rfl)
    have hne : p.1.res.succ e.j ≠ [] := by
      intro h0
      have := hN.split _ hlive 1
      rw [h0] at this
      simp at this
    obtain ⟨e2, he2⟩ := List.exists_mem_of_ne_nil _ hne
    obtain ⟨hex2, hei2⟩ := hedge _ e2 he2
    rcases edge_cases hd hx hex2 with ⟨_, s2, h7, h8⟩ | ⟨_, s2, h7, h8⟩ | ⟨_, m, hm, h7, h8⟩ | ⟨_, m, hm, h7, h8⟩ | ⟨_, p, m, hp, hm, hpm, h7, h8⟩
    · obtain ⟨r1, hr1, hm1⟩ := hmode e hex s (Or.inl ⟨h5, h6⟩)
      obtain ⟨r2, hr2, hm2⟩ := hmode e2 hex2 s2 (Or.inr ⟨h7, h8⟩)
      have hmm : s.mode = s2.mode := by rw [← hm1, ← hm2]; exact hm r1 hr1 r2 hr2
      have hcc : s.city = s2.city := by
        rw [hei2, h6] at h7
        exact ENode.city.inj h7
      have hss : s = s2 := by cases s; cases s2; simp only at hmm hcc; rw [hmm, hcc]
      have r1 := hr _ e he
      have r2 := hr _ e2 he2
      rw [h8, ← hss, ← h5, hei] at r2
      omega
    · rw [hei2, h6] at h7; cases h7
    · rw [hei2, h6] at h7; cases h7
    · rw [hei2, h6] at h7; cases h7
    · rw [hei2, h6] at h7; cases h7
  have hN' : Net f p.1.res.succ p.1.dest (fun y => Reached p y ∧ ∀ c, y ≠ .city c) :=
    ⟨fun y hy e he hns => ⟨hN.next y hy.1 e he hns, hnc y hy.1 hy.2 e he⟩, fun y hy => hN.split y hy.1,
      fun s hy => hN.board s hy.1⟩
  obtain ⟨s, hs, hw⟩ := List.mem_flatMap.1 hw
  obtain ⟨⟨h1, e, h2, h3⟩, h4⟩ := stopTrace_on hN' (fun h0 => ⟨hk' s hs h0, by simp⟩) (hk s hs).2.1 hw
  exact ⟨h1.2, fun c => by rw [← h3]; exact hnc _ h1.1 h1.2 e h2 c⟩

variable {N : Nat} {f : Dict Str K} {l : List (ODResult K × Dict (StopNode K) K)} {z v : Dict (LoadKey K) K} {vp : K}
  {u : Resources K}

/-- C52: the costing ends without an exception -/
theorem C52_terminates (ha : Admissible routes sPTP freq pas) (hd : DistinctIds g)
    (hx : buildExtGraph g routes sPTP freq = .ok x) (hl : Loading x pas N f l) (hvp : vp ≠ 0) :
    ∃ u, resourcesConsumer N f x vp z v l = .ok u :=
  ⟨_, resources_spec (hl.users ha hd hx hvp)⟩

/-- the same pairs with `c` times the trips -/
def scaled (c : K) (l : List (ODResult K × Dict (StopNode K) K)) : List (ODResult K × Dict (StopNode K) K) :=
  l.map fun p => (p.1.scale c, p.2)

theorem LedTo.of_scale {c : K} {q : ODResult K × Dict (StopNode K) K} {y : ENode K} (h : LedTo (q.1.scale c, q.2) y) :
    LedTo q y := by
  induction h with
  | start hs h1 h2 =>
    refine .start hs ?_ h2
    rintro h0
    exact h1 (by simp [ODResult.scale, h0])
  | next _ he hs ih => exact ih.next he hs

theorem Loading.scaled (hl : Loading x pas N f l) (c : K) : Loading x pas N f (scaled c l) := by
  refine ⟨hl.rounds, ?_, ?_⟩
  · intro p hp
    obtain ⟨q, hq, rfl⟩ := List.mem_map.1 hp
    exact hl.computed q hq
  · intro p hp
    obtain ⟨q, hq, rfl⟩ := List.mem_map.1 hp
    have hrun := hl.run q hq
    exact ⟨hrun.nonneg, fun s hs => hrun.some_line s (LedTo.of_scale hs)⟩

theorem sum_scaled (c : K) (F G : ODResult K × Dict (StopNode K) K → K)
    (h : ∀ p, G (p.1.scale c, p.2) = c * F p) : ((scaled c l).map G).sum = c * (l.map F).sum := by
  unfold Sidermit.scaled
  rw [List.map_map, ← List.sum_map_mul_left]
  congr 1
  exact List.map_congr_left fun p _ => h p

theorem flow_scaled (c : K) (ψ : ODResult K → ENode K → ENode K → K)
    (hψ : ∀ e : ODResult K, ψ (e.scale c) = ψ e) :
    ((scaled c l).map fun p => flow (ψ p.1) (stopsTrace N f p (Dict.keys p.1.paths))).sum =
      c * (l.map fun p => flow (ψ p.1) (stopsTrace N f p (Dict.keys p.1.paths))).sum := by
  apply sum_scaled
  intro p
  simp only
  rw [hψ]
  by_cases hc : c = 0
  · rw [stopsTrace_zero, hc, zero_mul, flow_nil]
    intro s _
    unfold stopTrips ODResult.scale
    simp [hc]
  · rw [stopsTrace_scale hc, flow_scale]
    rfl

/-- C52 (waiting time, time on board and transfers; see `C52_access_partial` for the access time): with `c` times the trips,
and the same tables of boardings and alightings, they are multiplied by `c` -/
theorem C52_scaling_partial (ha : Admissible routes sPTP freq pas) (hd : DistinctIds g)
    (hx : buildExtGraph g routes sPTP freq = .ok x) (hl : Loading x pas N f l) (hvp : vp ≠ 0) (c : K)
    {u' : Resources K} (hu : resourcesConsumer N f x vp z v l = .ok u)
    (hu' : resourcesConsumer N f x vp z v (scaled c l) = .ok u') :
    u'.te = c * u.te ∧ u'.tv = c * u.tv ∧ u'.t = c * u.t := by
  rw [resources_spec (hl.users ha hd hx hvp)] at hu
  rw [resources_spec ((hl.scaled c).users ha hd hx hvp)] at hu'
  cases hu
  cases hu'
  exact ⟨flow_scaled c (fun e => teW f e.res.succ) (fun _ => rfl), flow_scaled c (fun e => tvW x z v e.res.succ) (fun _ => rfl),
    flow_scaled c (fun e => trW e.dest) (fun _ => rfl)⟩

/-- C52: the access time of the walks between stops does not depend on the number of trips -/
theorem C52_access_exact (ha : Admissible routes sPTP freq pas) (hd : DistinctIds g)
    (hx : buildExtGraph g routes sPTP freq = .ok x) (hl : Loading x pas N f l) (hvp : vp ≠ 0)
    (hu : resourcesConsumer N f x vp z v l = .ok u) :
    ∃ A, 0 ≤ A ∧ ∀ c u', c ≠ 0 → resourcesConsumer N f x vp z v (scaled c l) = .ok u' → u'.ta = c * (u.ta - A) + A := by
  rw [resources_spec (hl.users ha hd hx hvp)] at hu
  cases hu
  refine ⟨(l.map fun p => ((stopsTrace N f p (Dict.keys p.1.paths)).map fun w => walkW w.i w.j).sum).sum, ?_, ?_⟩
  · apply List.sum_nonneg
    intro y hy
    obtain ⟨p, hp, rfl⟩ := List.mem_map.1 hy
    apply List.sum_nonneg
    intro y hy
    obtain ⟨w, hw, rfl⟩ := List.mem_map.1 hy
    obtain ⟨_, e, _, he, h1, h2⟩ := hl.item ha hd hx hp hw
    rw [← h1, ← h2]
    exact walkW_nonneg ha hd hx he
  · intro c u' hc hu'
    rw [resources_spec ((hl.scaled c).users ha hd hx hvp)] at hu'
    cases hu'
    simp only [List.sum_map_add]
    have h1 : ((scaled c l).map fun p => ((Dict.keys p.1.paths).map (accessOf vp p)).sum).sum =
        c * (l.map fun p => ((Dict.keys p.1.paths).map (accessOf vp p)).sum).sum := by
      apply sum_scaled
      intro p
      simp only
      rw [← List.sum_map_mul_left]
      congr 1
      apply List.map_congr_left
      intro s _
      unfold accessOf stopTrips ODResult.scale
      simp only
      ring
    have h2 : ((scaled c l).map fun p => ((stopsTrace N f p (Dict.keys p.1.paths)).map fun w => walkW w.i w.j).sum).sum =
        (l.map fun p => ((stopsTrace N f p (Dict.keys p.1.paths)).map fun w => walkW w.i w.j).sum).sum := by
      unfold Sidermit.scaled
      rw [List.map_map]
      congr 1
      apply List.map_congr_left
      intro p _
      simp only [Function.comp]
      rw [stopsTrace_scale hc, List.map_map]
      rfl
    rw [h1, h2]
    ring

/-- C52 (access time): it is multiplied by `c` when the lines are of one mode, or the modes have no access time.  In other
networks it is not, see `C52_access_fails`. -/
theorem C52_access_partial (ha : Admissible routes sPTP freq pas) (hd : DistinctIds g)
    (hx : buildExtGraph g routes sPTP freq = .ok x) (hl : Loading x pas N f l) (hvp : vp ≠ 0)
    (hm : (∀ r ∈ routes, ∀ r' ∈ routes, r.mode = r'.mode) ∨ ∀ r ∈ routes, r.mode.tat = 0) (c : K)
    {u' : Resources K} (hu : resourcesConsumer N f x vp z v l = .ok u)
    (hu' : resourcesConsumer N f x vp z v (scaled c l) = .ok u') : u'.ta = c * u.ta := by
  have hl' := hl.scaled c
  have h0 : ∀ l' : List (ODResult K × Dict (StopNode K) K), Loading x pas N f l' →
      ∀ p ∈ l', ((stopsTrace N f p (Dict.keys p.1.paths)).map fun w => walkW w.i w.j).sum = 0 := by
    intro l' hl' p hp
    apply List.sum_eq_zero
    intro y hy
    obtain ⟨w, hw, rfl⟩ := List.mem_map.1 hy
    rcases hm with hm | hm
    · obtain ⟨h1, h2⟩ := no_walks hl' ha hd hx hm hp hw
      unfold walkW
      split
      · next h => exact absurd h (h2 _)
      · next h _ => exact absurd h (h1 _)
      · rfl
    · obtain ⟨_, e, _, he, h1, h2⟩ := hl'.item ha hd hx hp hw
      rw [← h1, ← h2]
      by_cases ht : e.type = .access
      · obtain ⟨s, ⟨_, r, hr, hrm, _⟩, h⟩ := ((C35_edges hd hx e).1).1 ⟨he, ht⟩
        have := hm r hr
        rw [hrm] at this
        rcases h with rfl | rfl <;> simp [walkW, this]
      · rcases edge_cases hd hx he with ⟨h, _⟩ | ⟨h, _⟩ | ⟨_, m, hm, h5, h6⟩ | ⟨_, m, hm, h5, h6⟩ | ⟨_, p, m, hp, hm, hpm, h5, h6⟩
        · exact absurd h ht
        · exact absurd h ht
        all_goals rw [h5, h6]; rfl
  rw [resources_spec (hl.users ha hd hx hvp)] at hu
  rw [resources_spec (hl'.users ha hd hx hvp)] at hu'
  cases hu
  cases hu'
  simp only [List.sum_map_add]
  rw [List.sum_eq_zero (l := (scaled c l).map fun p => ((stopsTrace N f p (Dict.keys p.1.paths)).map fun w => walkW w.i w.j).sum),
    List.sum_eq_zero (l := l.map fun p => ((stopsTrace N f p (Dict.keys p.1.paths)).map fun w => walkW w.i w.j).sum), add_zero,
    add_zero]
  · apply sum_scaled
    intro p
    simp only
    rw [← List.sum_map_mul_left]
    congr 1
    apply List.map_congr_left
    intro s _
    unfold accessOf stopTrips ODResult.scale
    simp only
    ring
  · intro y hy
    obtain ⟨p, hp, rfl⟩ := List.mem_map.1 hy
    exact h0 _ hl p hp
  · intro y hy
    obtain ⟨p, hp, rfl⟩ := List.mem_map.1 hy
    exact h0 _ hl' p hp

/-! ## C59: transfers, signs -/

theorem pair_visited {edges : List (EEdge K)} {p : ODResult K × Dict (StopNode K) K} (hp : PairOk N f edges p) :
    Visited f edges (stopsTrace N f p (Dict.keys p.1.paths)) (fun ψ => pairTrips p * (ψ p.1.dest - ψ p.1.origin)) ∧
    ((∀ k, 0 ≤ f.getD k 0) → (∀ s ∈ Dict.keys p.1.paths, 0 ≤ stopTrips p s) →
      ∀ w ∈ stopsTrace N f p (Dict.keys p.1.paths), 0 ≤ w.pax) := by
  obtain ⟨_, _, _, h1, h2⟩ := loadPair_aux hp _ (fun s hs => hs) Traced.empty
  exact ⟨h1, h2⟩

/-- every trip of a pair arrives at a stop of the destination -/
theorem arrivals (hl : Loading x pas N f l) (ha : Admissible routes sPTP freq pas) (hd : DistinctIds g)
    (hx : buildExtGraph g routes sPTP freq = .ok x) {p : ODResult K × Dict (StopNode K) K} (hp : p ∈ l) :
    flow (fun _ j => if stopOf p.1.dest j then 1 else 0) (stopsTrace N f p (Dict.keys p.1.paths)) = pairTrips p := by
  obtain ⟨hv, _⟩ := pair_visited (hl.ok ha hd hx p hp)
  obtain ⟨hk, hin, _⟩ := (hl.computed p hp).reach ha hd hx
  have hb := hv.balance (fun y => if stopOf p.1.dest y then 1 else 0) (fun c => if c = p.1.dest then 1 else 0)
    (fun s => by simp [stopOf])
  have h1 : pairTrips p * ((if p.1.dest = p.1.dest then (1 : K) else 0) - if p.1.origin = p.1.dest then 1 else 0) = pairTrips p := by
    by_cases ho : p.1.origin = p.1.dest
    · have : Dict.keys p.1.paths = [] := by
        rw [List.eq_nil_iff_forall_not_mem]
        intro s hs
        have h2 := (hk s hs).2.1
        rw [stopOf, (hin s hs).2, ho] at h2
        simp at h2
      unfold pairTrips
      rw [this]
      simp
    · rw [if_pos rfl, if_neg ho, sub_zero, mul_one]
  rw [h1] at hb
  rw [← hb]
  apply flow_congr
  intro w hw
  obtain ⟨⟨⟨_, _, h2, _⟩, _⟩, _⟩ := hl.item ha hd hx hp hw
  rw [h2]
  simp

/-- C59: a transfer is every boarding but the first: the transfers of an hour are the boardings less the trips -/
theorem C59_transfers (ha : Admissible routes sPTP freq pas) (hd : DistinctIds g)
    (hx : buildExtGraph g routes sPTP freq = .ok x) (hl : Loading x pas N f l) (hvp : vp ≠ 0)
    (hu : resourcesConsumer N f x vp z v l = .ok u) {r : Loads K} (hr : getLoads N f l = .ok r) :
    u.t = hourly f r.z (fun _ => True) - tripsOf l (fun _ => True) := by
  rw [resources_spec (hl.users ha hd hx hvp)] at hu
  cases hu
  obtain ⟨t, r', h, ht, hrt, _, _⟩ := getLoads_spec (hl.ok ha hd hx)
  rw [hr] at h
  cases h
  rw [hrt]
  simp only
  rw [hourly_eq_tally, ht.z, tripsOf_eq, trace, flow_flatMap, ← sum_sub]
  congr 1
  apply List.map_congr_left
  intro p hp
  obtain ⟨hv, _⟩ := pair_visited (hl.ok ha hd hx p hp)
  let φ : ENode K → K := fun y => match y with
    | .route _ => 1
    | _ => 0
  have hb := hv.balance φ (fun _ => 0) (fun s => rfl)
  rw [sub_zero, mul_zero] at hb
  rw [← arrivals hl ha hd hx hp, if_pos trivial, mul_one]
  have key : flow (fun i j => trW p.1.dest i j + (if stopOf p.1.dest j then 1 else 0) + (φ j - φ i))
      (stopsTrace N f p (Dict.keys p.1.paths)) = flow (zW fun _ => 1) (stopsTrace N f p (Dict.keys p.1.paths)) := ?_
  · rw [flow_add, flow_add, hb, add_zero] at key
    rw [← key, add_sub_cancel_right]
  apply flow_congr
  intro w hw
  obtain ⟨⟨⟨_, _, _, hc⟩, _⟩, e, _, he, h1, h2⟩ := hl.item ha hd hx hp hw
  rw [← h1] at hc
  rw [← h1, ← h2]
  rcases edge_cases hd hx he with ⟨_, s, h5, h6⟩ | ⟨_, s, h5, h6⟩ | ⟨_, n, _, h5, h6⟩ | ⟨_, n, _, h5, h6⟩ | ⟨_, p, n, hp, hn, hpn, h5, h6⟩
  · rw [h5] at hc
    have : s.city ≠ p.1.dest := fun h => hc (by rw [h])
    rw [h5, h6]
    simp [zW, trW, φ, stopOf, this]
  · rw [h5, h6]
    simp [zW, trW, φ, stopOf]
  · rw [h5, h6]
    simp [zW, trW, φ, stopOf]
  · rw [h5, h6]
    by_cases h : n.stop.city = p.1.dest <;> simp [zW, trW, φ, stopOf, h]
  · rw [h5, h6]
    simp [zW, trW, φ, stopOf]

/-- dwell time per passenger -/
def dwellW (x : ExtGraph K) (z v : Dict (LoadKey K) K) (succ : ENode K → List (EEdge K)) (i j : ENode K) : K :=
  alightW x.nodes v i j + throughW z v succ i j

theorem dwellW_nonneg (hd : DistinctIds g) (hx : buildExtGraph g routes sPTP freq = .ok x)
    (hz : ∀ k, 0 ≤ z.getD k 0 ∧ 0 ≤ v.getD k 0) (ht : ∀ r ∈ routes, 0 ≤ r.mode.t) {succ : ENode K → List (EEdge K)} {e : EEdge K}
    (he : e ∈ x.edges) : 0 ≤ dwellW x z v succ e.i e.j := by
  unfold dwellW
  refine add_nonneg ?_ ?_
  · rcases edge_cases hd hx he with ⟨_, s, h5, h6⟩ | ⟨_, s, h5, h6⟩ | ⟨_, n, hn, h5, h6⟩ | ⟨_, n, hn, h5, h6⟩ | ⟨_, p, n, _, hn, hpn, h5, h6⟩
    · rw [h5, h6]; exact le_refl _
    · rw [h5, h6]; exact le_refl _
    · rw [h5, h6]; exact le_refl _
    · rw [h5, h6]
      unfold alightW
      simp only
      split
      · exact le_refl _
      · exact mul_nonneg (mul_nonneg (hz _).2 (by norm_num)) (div_nonneg (ht _ (List.mem_of_getElem? hn.1)) (by norm_num))
    · rw [h5, h6]; exact le_refl _
  · unfold throughW
    apply List.sum_nonneg
    intro y hy
    obtain ⟨e2, he2, rfl⟩ := List.mem_map.1 hy
    unfold stayW
    split
    · next p' n' m' h1 h2 h3 =>
      rcases edge_cases hd hx he with ⟨_, s, h5, h6⟩ | ⟨_, s, h5, h6⟩ | ⟨_, n, hn, h5, h6⟩ | ⟨_, n, hn, h5, h6⟩ | ⟨_, p, n, hp, hn, hpn, h5, h6⟩
      · rw [h1] at h5; cases h5
      · rw [h1] at h5; cases h5
      · rw [h1] at h5; cases h5
      · rw [h2] at h6; cases h6
      · rw [h1] at h5
        rw [ENode.route.inj h5]
        refine mul_nonneg ?_ (div_nonneg (ht _ (List.mem_of_getElem? hp.1)) (by norm_num))
        unfold passing
        split
        · exact le_max_of_le_left (hz _).1
        · split
          · exact add_nonneg (hz _).1 (hz _).2
          · exact le_refl _
    · exact le_refl _

/-- C59: no resource is negative -/
theorem C59_nonneg (ha : Admissible routes sPTP freq pas) (hd : DistinctIds g)
    (hx : buildExtGraph g routes sPTP freq = .ok x) (hl : Loading x pas N f l) (hvp : 0 < vp)
    (hu : resourcesConsumer N f x vp z v l = .ok u) (hf : ∀ id, 0 ≤ f.getD id 0)
    (hV : ∀ p ∈ l, 0 ≤ p.1.vij ∧ ∀ s, 0 ≤ p.2.getD s 0) (hz : ∀ k, 0 ≤ z.getD k 0 ∧ 0 ≤ v.getD k 0)
    (ht : ∀ r ∈ routes, 0 ≤ r.mode.t) (hw : ∀ n ∈ g.nodes, 0 ≤ n.width) :
    0 ≤ u.ta ∧ 0 ≤ u.te ∧ 0 ≤ u.tv ∧ 0 ≤ u.t := by
  rw [resources_spec (hl.users ha hd hx hvp.ne')] at hu
  cases hu
  have hstop : ∀ p ∈ l, ∀ s ∈ Dict.keys p.1.paths, 0 ≤ stopTrips p s := fun p hp s _ =>
    div_nonneg (mul_nonneg (hV p hp).1 ((hV p hp).2 s)) (by norm_num)
  have hflow : ∀ p ∈ l, ∀ ψ : ENode K → ENode K → K, (∀ e ∈ x.edges, e ∈ p.1.res.succ e.i → 0 ≤ ψ e.i e.j) →
      0 ≤ flow ψ (stopsTrace N f p (Dict.keys p.1.paths)) := by
    intro p hp ψ hψ
    apply List.sum_nonneg
    intro y hy
    obtain ⟨w, hw, rfl⟩ := List.mem_map.1 hy
    obtain ⟨_, e, hes, he, h1, h2⟩ := hl.item ha hd hx hp hw
    refine mul_nonneg ?_ ((pair_visited (hl.ok ha hd hx p hp)).2 hf (hstop p hp) w hw)
    have := hψ e he (by rw [h1]; exact hes)
    rwa [h1, h2] at this
  have hsum : ∀ F : ODResult K × Dict (StopNode K) K → K, (∀ p ∈ l, 0 ≤ F p) → 0 ≤ (l.map F).sum := by
    intro F hF
    apply List.sum_nonneg
    intro y hy
    obtain ⟨p, hp, rfl⟩ := List.mem_map.1 hy
    exact hF p hp
  obtain ⟨entries, hsp⟩ := extSpec hx
  refine ⟨hsum _ ?_, hsum _ ?_, hsum _ ?_, hsum _ ?_⟩
  · intro p hp
    obtain ⟨_, hin, _⟩ := (hl.computed p hp).reach ha hd hx
    refine add_nonneg (List.sum_nonneg ?_) (List.sum_nonneg ?_)
    · intro y hy
      obtain ⟨s, hs, rfl⟩ := List.mem_map.1 hy
      obtain ⟨hg, r, hr, hm, _⟩ := (hsp.mem_stop hd s).1 (hin s hs).1
      have h1 := (ha.modes r hr).tat
      have h2 := (ha.modes r hr).lines
      rw [hm] at h1 h2
      unfold accessOf
      refine mul_nonneg (hstop p hp s hs) (add_nonneg (div_nonneg h1 (by norm_num)) (div_nonneg (mul_nonneg ?_ ?_) ?_))
      · exact div_nonneg ((hV p hp).2 s) (by norm_num)
      · rw [← (hin s hs).2]
        exact hw _ (List.mem_of_getElem? hg)
      · exact mul_nonneg (mul_nonneg (by norm_num) hvp.le) h2.le
    · intro y hy
      obtain ⟨w, hw, rfl⟩ := List.mem_map.1 hy
      obtain ⟨_, e, _, he, h1, h2⟩ := hl.item ha hd hx hp hw
      rw [← h1, ← h2]
      exact walkW_nonneg ha hd hx he
  · intro p hp
    refine hflow p hp _ ?_
    intro e he hes
    rcases edge_cases hd hx he with ⟨_, s, h5, h6⟩ | ⟨_, s, h5, h6⟩ | ⟨_, n, hn, h5, h6⟩ | ⟨_, n, _, h5, h6⟩ | ⟨_, p, n, _, hn, hpn, h5, h6⟩
    · rw [h5, h6]; exact le_refl _
    · rw [h5, h6]; exact le_refl _
    · rw [h5, h6]
      have hr := ha.modes n.route (List.mem_of_getElem? hn.1)
      unfold teW
      simp only
      rw [hn.2.2.1]
      refine div_nonneg hr.theta.le (div_nonneg (List.sum_nonneg ?_) hr.lines.le)
      intro y hy
      obtain ⟨b, _, rfl⟩ := List.mem_map.1 hy
      unfold lineF
      split
      · exact hf _
      · exact le_refl _
    · rw [h5, h6]; exact le_refl _
    · rw [h5, h6]; exact le_refl _
  · intro p hp
    refine hflow p hp _ ?_
    intro e he hes
    unfold tvW
    rw [add_assoc]
    refine add_nonneg ?_ ?_
    · unfold rideW
      split
      · cases hfind : x.edges.find? fun e' => decide (e'.i = e.i ∧ e'.j = e.j) with
        | none => simp
        | some e' =>
          simpa using (ha.searchable hx).time e' (List.mem_of_find?_eq_some hfind)
      · exact le_refl _
    · exact dwellW_nonneg hd hx hz ht he
  · intro p hp
    refine hflow p hp _ ?_
    intro e he hes
    unfold trW
    split
    · split
      · exact zero_le_one
      · exact le_refl _
    · exact le_refl _

/-! ## C53: the cost of the users and the labels -/

/-- generalised time per passenger, in hours on board, without dwell times -/
def generalW (f : Dict Str K) (x : ExtGraph K) (sPTP : K) (pas : Passenger K) (succ : ENode K → List (EEdge K))
    (dest : CityNode K) (i j : ENode K) : K :=
  pas.pw / pas.pv * teW f succ i j + rideW x.edges i j + sPTP / 60 * trW dest i j + pas.pa / pas.pv * walkW i j

/-- time to the destination -/
def ODResult.togo (pas : Passenger K) (e : ODResult K) (y : ENode K) : K :=
  (e.res.label y).untopD 0 - accessTime pas (some e.origin) y

theorem ODResult.Computed.result (ha : Admissible routes sPTP freq pas)
    (hx : buildExtGraph g routes sPTP freq = .ok x) {e : ODResult K} (he : e.Computed x pas) :
    buildHyperpath ⟨x.nodes, x.edges, pas, some e.origin, some e.dest⟩ = .ok e.res := by
  obtain ⟨r', paths', h1, hr, _, _⟩ := hyperpathOD_spec (h := ⟨x.nodes, x.edges, pas, none, none⟩) (ha.searchable hx)
    e.origin e.dest
  unfold ODResult.Computed at he
  rw [h1] at he
  simp only [Except.ok.injEq, Prod.mk.injEq] at he
  rw [he.1] at hr
  exact hr

theorem rideW_eq (hx : buildExtGraph g routes sPTP freq = .ok x) {e : EEdge K} (he : e ∈ x.edges) {p n : RouteNode K}
    (h1 : e.i = .route p) (h2 : e.j = .route n) : rideW x.edges e.i e.j = e.t := by
  have hf : x.edges.find? (fun e' => decide (e'.i = e.i ∧ e'.j = e.j)) = some e := by
    cases hf : x.edges.find? fun e' => decide (e'.i = e.i ∧ e'.j = e.j) with
    | none => exact absurd (List.find?_eq_none.1 hf e he) (by simp)
    | some e' =>
      have h3 := List.find?_some hf
      have h4 := List.mem_of_find?_eq_some hf
      simp only [decide_eq_true_eq] at h3
      rw [List.inj_on_of_nodup_map (C35_no_parallel_edges hx) h4 he (by simp [h3])]
  unfold rideW
  rw [hf]
  split
  · rfl
  · next h => exact absurd h2 (h p n h1)

/-- on the average, the generalised time of an edge is the difference of the times to the destination -/
theorem togo_block (ha : Admissible routes sPTP freq pas) (hd : DistinctIds g)
    (hx : buildExtGraph g routes sPTP freq = .ok x) (hf : ∀ id, 0 ≤ (frequencies routes freq).getD id 0) {e : ODResult K}
    {sh : Dict (StopNode K) K} (he : e.Computed x pas) (y : ENode K) (hy : Reached (e, sh) y) (a : K) :
    ((e.res.succ y).map fun b => (generalW (frequencies routes freq) x sPTP pas e.res.succ e.dest y b.j +
      (e.togo pas b.j - e.togo pas y)) * disOf (frequencies routes freq) e.res.succ ⟨y, b.j, a⟩).sum = 0 := by
  have hrun : LinesRun (frequencies routes freq) (e, sh) := linesRun_graph (p := (e, sh)) ha hd hx hf he
  have hN : Net (frequencies routes freq) e.res.succ e.dest (Reached (e, sh)) := (LinesRun.net (p := (e, sh)) ha hd hx he hrun).1
  have hedge := (he.reach ha hd hx).2.2.1
  have hres := he.result ha hx
  by_cases hB : ∃ b0 ∈ e.res.succ y, b0.type = .boarding
  · obtain ⟨b0, hb0, ht0⟩ := hB
    obtain ⟨s, rfl, _, hall, _, t, ht, hlab⟩ := C40_lines ha hx hres hb0 ht0
    set L := e.res.succ (.stop s) with hL
    set F := boardSum (frequencies routes freq) e.res.succ (.stop s) with hF
    have hbn : ∀ b ∈ L, ∃ n : RouteNode K, b.j = .route n ∧ n.route.mode = s.mode ∧ 0 < (s.mode.d : K) ∧
        lineFreq b = lineF (frequencies routes freq) b.j * ((s.mode.d : K))⁻¹ := by
      intro b hb
      obtain ⟨n, hn, _, hbe⟩ := ((C35_edges hd hx b).2.1).1 ⟨(hall b hb).1, (hall b hb).2.1⟩
      have hi := (hall b hb).2.2.1
      rw [hbe] at hi
      have hm : n.route.mode = s.mode := by rw [← hn.2.2.1, ENode.stop.inj hi]
      refine ⟨n, by rw [hbe], hm, ?_, ?_⟩
      · rw [← hm]
        exact (ha.modes n.route (List.mem_of_getElem? hn.1)).lines
      · rw [hbe, ← hm, ← div_eq_mul_inv]
        rfl
    obtain ⟨_, _, _, hd0, _⟩ := hbn b0 hb0
    obtain ⟨n0, hn0, _⟩ := hbn b0 hb0
    have hF0 : F ≠ 0 := (hN.board s hy b0 hb0 n0 hn0).2
    have e1 : (L.map lineFreq).sum = F * ((s.mode.d : K))⁻¹ := by
      rw [hF, boardSum, ← List.sum_map_mul_right]
      congr 1
      apply List.map_congr_left
      intro b hb
      exact (hbn b hb).choose_spec.2.2.2
    have e2 : (L.map fun b => lineFreq b * t b).sum =
        (L.map fun b => lineF (frequencies routes freq) b.j * t b).sum * ((s.mode.d : K))⁻¹ := by
      rw [← List.sum_map_mul_right]
      congr 1
      apply List.map_congr_left
      intro b hb
      rw [(hbn b hb).choose_spec.2.2.2]
      ring
    have hh : e.togo pas (.stop s) = (s.mode.theta * pas.pw / pas.pv + (L.map fun b => lineFreq b * t b).sum) /
        (L.map lineFreq).sum := by
      unfold ODResult.togo
      rw [hlab, WithTop.untopD_coe, add_sub_cancel_right]
    have hterm : ∀ b ∈ L, (generalW (frequencies routes freq) x sPTP pas e.res.succ e.dest (.stop s) b.j +
        (e.togo pas b.j - e.togo pas (.stop s))) * disOf (frequencies routes freq) e.res.succ ⟨.stop s, b.j, a⟩ =
        a * F⁻¹ * (lineF (frequencies routes freq) b.j * t b) + a * F⁻¹ * (pas.pw / pas.pv * (s.mode.theta / (F / (s.mode.d : K))) -
          e.togo pas (.stop s)) * lineF (frequencies routes freq) b.j := by
      intro b hb
      obtain ⟨n, hn, hm, _, _⟩ := hbn b hb
      have h1 : e.togo pas b.j = t b := by
        unfold ODResult.togo
        rw [ht b hb, hn]
        simp [accessTime]
      have h2 : disOf (frequencies routes freq) e.res.succ ⟨.stop s, b.j, a⟩ = a * (lineF (frequencies routes freq) b.j / F) := by
        rw [hn]
        rfl
      have h3 : generalW (frequencies routes freq) x sPTP pas e.res.succ e.dest (.stop s) b.j =
          pas.pw / pas.pv * (s.mode.theta / (F / (s.mode.d : K))) := by
        rw [hn]
        simp only [generalW, teW, rideW, trW, walkW, hm, mul_zero, add_zero]
        rfl
      rw [h1, h2, h3]
      ring
    rw [List.map_congr_left hterm, List.sum_map_add, List.sum_map_mul_left, List.sum_map_mul_left]
    change a * F⁻¹ * _ + _ * F = 0
    rw [hh, e1, e2]
    have := hd0.ne'
    field_simp
    ring
  · push Not at hB
    obtain ⟨e1, h5, h6, h7, h8, h9⟩ := C40_legs ha hx hres hy.2.1 (by simpa using hy.2.2.2) hB
    have htog : e.togo pas y = legTime pas (some e.dest) e1 + e.togo pas e1.j := by
      unfold ODResult.togo
      obtain ⟨a1, ha1⟩ := WithTop.ne_top_iff_exists.1 hy.2.1
      obtain ⟨a2, ha2⟩ := WithTop.ne_top_iff_exists.1 h8
      rw [← ha1, ← ha2] at h9 ⊢
      simp only [WithTop.untopD_coe]
      have : a1 + accessTime pas (some e.origin) e1.j = legTime pas (some e.dest) e1 + a2 + accessTime pas (some e.origin) y := by
        exact_mod_cast h9
      linear_combination this
    have hleg : generalW (frequencies routes freq) x sPTP pas e.res.succ e.dest y e1.j = legTime pas (some e.dest) e1 := by
      rw [← h7]
      rcases edge_cases hd hx h6 with ⟨ht, s, h10, h11⟩ | ⟨ht, s, h10, h11⟩ | ⟨ht, _⟩ | ⟨ht, n, hn, h10, h11⟩ | ⟨ht, p, n, hp, hn, hpn, h10, h11⟩
      · obtain ⟨s', hs', h⟩ := ((C35_edges hd hx e1).1).1 ⟨h6, ht⟩
        rcases h with rfl | rfl
        · simp [generalW, teW, rideW, trW, walkW, legTime]
          ring
        · simp [generalW, teW, rideW, trW, walkW, legTime]
          ring
      · obtain ⟨s', hs', h⟩ := ((C35_edges hd hx e1).1).1 ⟨h6, ht⟩
        rcases h with rfl | rfl
        · simp [generalW, teW, rideW, trW, walkW, legTime]
          ring
        · simp [generalW, teW, rideW, trW, walkW, legTime]
          ring
      · exact absurd ht (hB e1 (by rw [h5]; simp))
      · obtain ⟨n', hn', _, rfl⟩ := ((C35_edges hd hx e1).2.2).1 ⟨h6, ht⟩
        by_cases hc : n'.stop.city = e.dest <;> simp [generalW, teW, rideW, trW, walkW, legTime, hc]
      · have hride := rideW_eq hx h6 h10 h11
        have h12 : legTime pas (some e.dest) e1 = e1.t := by
          unfold legTime
          rw [ht]
        rw [h12, ← hride, h10, h11]
        simp [generalW, teW, trW, walkW]
    rw [h5]
    simp only [List.map_cons, List.map_nil, List.sum_cons, List.sum_nil, add_zero]
    rw [hleg, htog]
    ring

/-- whoever is in a vehicle or at a stop of a mode has its access time ahead -/
theorem strategy_access (ha : Admissible routes sPTP freq pas) (hd : DistinctIds g)
    (hx : buildExtGraph g routes sPTP freq = .ok x) {o d : Option (CityNode K)} {y : ENode K} {c : K}
    (h : Strategy x.edges pas o d y c) : 0 ≤ c ∧ (∀ s, y = .stop s → s.mode.tat / 60 * pas.pa / pas.pv ≤ c) ∧
      ∀ n, y = .route n → n.route.mode.tat / 60 * pas.pa / pas.pv ≤ c := by
  have hsr := ha.searchable hx
  have hleg : ∀ e ∈ x.edges, 0 ≤ legTime pas d e := by
    intro e he
    have := hsr.time e he
    unfold legTime
    split
    · exact div_nonneg (mul_nonneg this ha.pa) ha.pv.le
    · split
      · exact le_refl _
      · exact this
    · exact this
  induction h with
  | arrive d hd => exact ⟨le_refl _, by simp, by simp⟩
  | go e he hb hi hj c hc ih =>
    obtain ⟨h0, hs, hn⟩ := ih
    have hl := hleg e he
    refine ⟨add_nonneg hl h0, ?_, ?_⟩
    · intro s hes
      have ht : e.type = .access := by
        rcases edge_cases hd hx he with ⟨ht, _⟩ | ⟨ht, _⟩ | ⟨ht, _⟩ | ⟨_, n, _, h5, _⟩ | ⟨_, p, n, _, _, _, h5, _⟩
        · exact ht
        · exact ht
        · exact absurd ht hb
        · rw [hes] at h5; cases h5
        · rw [hes] at h5; cases h5
      obtain ⟨s', _, h⟩ := ((C35_edges hd hx e).1).1 ⟨he, ht⟩
      rcases h with rfl | rfl
      · cases hes
      · have : s' = s := ENode.stop.inj hes
        subst this
        simp only [legTime]
        linarith
    · intro n hen
      rcases edge_cases hd hx he with ⟨_, s, h5, _⟩ | ⟨_, s, h5, _⟩ | ⟨ht, _⟩ | ⟨_, m, hm, h5, h6⟩ | ⟨_, p, m, hp, hm, hpm, h5, h6⟩
      · rw [hen] at h5; cases h5
      · rw [hen] at h5; cases h5
      · exact absurd ht hb
      · have := hs _ h6
        rw [hen] at h5
        have hnm := ENode.route.inj h5
        rw [hnm, ← hm.2.2.1]
        linarith
      · have := hn _ h6
        rw [hen] at h5
        have hnp := ENode.route.inj h5
        have hroute : p.route = m.route := by
          have h1 := hp.1
          rw [hpm.1, hm.1] at h1
          exact (Option.some.inj h1).symm
        rw [hnp, hroute]
        linarith
  | wait s l hne hnd hl' hc ih =>
    have hpos : 0 < (l.map fun p => lineFreq p.1).sum := by
      apply List.sum_pos
      · intro y hy
        obtain ⟨p, hp, rfl⟩ := List.mem_map.1 hy
        exact (hl' p hp).2.2.2
      · simpa using hne
    have hmode : ∀ p ∈ l, s.mode.tat / 60 * pas.pa / pas.pv ≤ p.2 ∧ 0 < s.mode.theta ∧ 0 ≤ s.mode.tat := by
      intro p hp
      obtain ⟨n, hn, _, hbe⟩ := ((C35_edges hd hx p.1).2.1).1 ⟨(hl' p hp).1, (hl' p hp).2.1⟩
      have hi := (hl' p hp).2.2.1
      rw [hbe] at hi
      have hm : n.route.mode = s.mode := by rw [← hn.2.2.1, ENode.stop.inj hi]
      have hr := ha.modes n.route (List.mem_of_getElem? hn.1)
      have := (ih p hp).2.2 n (by rw [hbe])
      rw [hm] at this hr
      exact ⟨this, hr.theta, hr.tat⟩
    obtain ⟨p0, hp0⟩ := List.exists_mem_of_ne_nil _ hne
    obtain ⟨_, hth, htat⟩ := hmode p0 hp0
    have hτ : 0 ≤ s.mode.tat / 60 * pas.pa / pas.pv :=
      div_nonneg (mul_nonneg (div_nonneg htat (by norm_num)) ha.pa) ha.pv.le
    have hbound : s.mode.tat / 60 * pas.pa / pas.pv ≤ (waitCost pas s + (l.map fun p => lineFreq p.1 *
        (legTime pas d p.1 + p.2)).sum) / (l.map fun p => lineFreq p.1).sum := by
      rw [le_div_iff₀ hpos, ← List.sum_map_mul_left]
      have h1 : (l.map fun p => s.mode.tat / 60 * pas.pa / pas.pv * lineFreq p.1).sum ≤
          (l.map fun p => lineFreq p.1 * (legTime pas d p.1 + p.2)).sum := by
        apply List.sum_le_sum
        intro p hp
        have h2 := (hmode p hp).1
        have h3 := hleg p.1 (hl' p hp).1
        have h4 := (hl' p hp).2.2.2
        rw [mul_comm]
        exact mul_le_mul_of_nonneg_left (by linarith) h4.le
      have h2 : 0 ≤ waitCost pas s := div_nonneg (mul_nonneg hth.le ha.pw.le) ha.pv.le
      linarith
    refine ⟨hτ.trans hbound, ?_, ?_⟩
    · intro s' hs'
      cases hs'
      exact hbound
    · intro n hn
      cases hn

/-- at a stop of the destination only the access time is ahead -/
theorem togo_dest (ha : Admissible routes sPTP freq pas) (hd : DistinctIds g)
    (hx : buildExtGraph g routes sPTP freq = .ok x) {e : ODResult K} (he : e.Computed x pas) (hod : e.origin ≠ e.dest)
    {s : StopNode K} (hs : s.Wanted g routes) (hc : s.city = e.dest) :
    e.togo pas (.stop s) = s.mode.tat / 60 * pas.pa / pas.pv := by
  have hres := he.result ha hx
  obtain ⟨entries, hsp⟩ := extSpec hx
  have hin : ENode.stop s ∈ allNodes x.nodes := (mem_allNodes _).2 (Or.inr (Or.inl ⟨s, (hsp.mem_stop hd s).2 hs, rfl⟩))
  have hedge := ((C35_edges hd hx ⟨.stop s, .city s.city, s.mode.tat / 60, none, .access⟩).1).2 ⟨s, hs, Or.inr rfl⟩
  have hacc : accessTime pas (some e.origin) (.stop s) = 0 := by
    refine if_neg ?_
    rw [hc]
    simpa using hod.symm
  have hup := C39_optimal ha hx hres (Strategy.go (origin := some e.origin) (dest := some e.dest) _ hedge.1 (by simp) (by simp)
    (by simpa [hc] using hod.symm) 0 (by rw [hc]; exact Strategy.arrive e.dest rfl))
  have hfin : e.res.label (.stop s) ≠ ⊤ := by
    intro h
    simp only at hup
    rw [h] at hup
    simp at hup
  obtain ⟨c, hc1, hc2⟩ := C38_attained ha hx hres hin hfin
  have hlow := (strategy_access ha hd hx hc1).2.1 s rfl
  simp only at hup
  rw [hc2, hacc, add_zero, add_zero, WithTop.coe_le_coe] at hup
  simp only [legTime, add_zero] at hup
  unfold ODResult.togo
  rw [hc2, hacc, WithTop.untopD_coe, add_zero, sub_zero]
  exact le_antisymm hup hlow

/-- the values of time in the cost are in the proportions that the travellers perceive -/
structure SameValues (sPTP : K) (pas : Passenger K) : Prop where
  access : pas.spa * pas.pv = pas.pa * pas.spv
  wait : pas.spw * pas.pv = pas.pw * pas.spv
  transfer : pas.spt = sPTP

/-- the walk to the stop across the width of the street -/
def lateral (vp : K) (p : ODResult K × Dict (StopNode K) K) (s : StopNode K) : K :=
  p.2.getD s 0 / 100 * p.1.origin.node.width / (4 * vp * (s.mode.d : K))

/-- what the labels of the stops of the origins tell of the cost -/
def labelCost (pas : Passenger K) (l : List (ODResult K × Dict (StopNode K) K)) : K :=
  (l.map fun p => ((Dict.keys p.1.paths).map fun s => p.1.vij * p.2.getD s 0 / 100 *
    (pas.spv * (p.1.res.label (.stop s)).untopD 0 + pas.spa * (lateral pas.va p s - s.mode.tat / 60))).sum).sum

theorem sum_cost {α : Type} (a b c d : K) (A B C D E F : α → K) : ∀ l : List α,
    (∀ p ∈ l, A p * a + B p * b + C p * c + D p * d / 60 * c = E p + c * F p) →
    (l.map A).sum * a + (l.map B).sum * b + (l.map C).sum * c + (l.map D).sum * d / 60 * c = (l.map E).sum + c * (l.map F).sum
  | [], _ => by simp
  | p :: l, h => by
    have h1 := sum_cost a b c d A B C D E F l fun q hq => h q (List.mem_cons_of_mem _ hq)
    have h2 := h p (by simp)
    simp only [List.map_cons, List.sum_cons]
    linear_combination h1 + h2

theorem users_cost_eq (ha : Admissible routes sPTP freq pas) (hd : DistinctIds g)
    (hx : buildExtGraph g routes sPTP freq = .ok x) (hf : ∀ id, 0 ≤ (frequencies routes freq).getD id 0)
    (hl : Loading x pas N (frequencies routes freq) l) (hva : pas.va ≠ 0) (hs : SameValues sPTP pas)
    (hm : (∀ r ∈ routes, ∀ r' ∈ routes, r.mode = r'.mode) ∨ ∀ r ∈ routes, r.mode.tat = 0) :
    usersCost N (frequencies routes freq) x pas z v l = .ok (labelCost pas l + pas.spv * (l.map fun p =>
      flow (dwellW x z v p.1.res.succ) (stopsTrace N (frequencies routes freq) p (Dict.keys p.1.paths))).sum) := by
  unfold usersCost
  rw [resources_spec (hl.users ha hd hx hva), py_ok_bind]
  congr 1
  unfold resourcesCost labelCost
  simp only
  have hpv := ha.pv.ne'
  have hcost : ∀ p ∈ l, (((Dict.keys p.1.paths).map (accessOf pas.va p)).sum +
        ((stopsTrace N (frequencies routes freq) p (Dict.keys p.1.paths)).map fun w => walkW w.i w.j).sum) * pas.spa +
      flow (teW (frequencies routes freq) p.1.res.succ) (stopsTrace N (frequencies routes freq) p (Dict.keys p.1.paths)) * pas.spw +
      flow (tvW x z v p.1.res.succ) (stopsTrace N (frequencies routes freq) p (Dict.keys p.1.paths)) * pas.spv +
      flow (trW p.1.dest) (stopsTrace N (frequencies routes freq) p (Dict.keys p.1.paths)) * pas.spt / 60 * pas.spv =
      ((Dict.keys p.1.paths).map fun s => p.1.vij * p.2.getD s 0 / 100 *
        (pas.spv * (p.1.res.label (.stop s)).untopD 0 + pas.spa * (lateral pas.va p s - s.mode.tat / 60))).sum +
      pas.spv * flow (dwellW x z v p.1.res.succ) (stopsTrace N (frequencies routes freq) p (Dict.keys p.1.paths)) := by
    intro p hp
    have hcomp := hl.computed p hp
    obtain ⟨hk, hin, hedge, ⟨rank, hr, hrN⟩, _⟩ := hcomp.reach ha hd hx
    obtain ⟨hN, hk'⟩ := (hl.run p hp).net ha hd hx hcomp
    obtain ⟨entries, hsp⟩ := extSpec hx
    -- nobody spends access time on the way
    have hwalk : ∀ w ∈ stopsTrace N (frequencies routes freq) p (Dict.keys p.1.paths), walkW w.i w.j = 0 := by
      intro w hw
      rcases hm with hm | hm
      · obtain ⟨h1, h2⟩ := no_walks hl ha hd hx hm hp hw
        unfold walkW
        split
        · next h => exact absurd h (h2 _)
        · next h _ => exact absurd h (h1 _)
        · rfl
      · obtain ⟨_, e, _, he, h1, h2⟩ := hl.item ha hd hx hp hw
        rw [← h1, ← h2]
        by_cases ht : e.type = .access
        · obtain ⟨s, ⟨_, r, hr, hrm, _⟩, h⟩ := ((C35_edges hd hx e).1).1 ⟨he, ht⟩
          have := hm r hr
          rw [hrm] at this
          rcases h with rfl | rfl <;> simp [walkW, this]
        · rcases edge_cases hd hx he with ⟨h, _⟩ | ⟨h, _⟩ | ⟨_, m, hm, h5, h6⟩ | ⟨_, m, hm, h5, h6⟩ | ⟨_, p, m, hp, hm, hpm, h5, h6⟩
          · exact absurd h ht
          · exact absurd h ht
          all_goals rw [h5, h6]; rfl
    have hwalk0 : ((stopsTrace N (frequencies routes freq) p (Dict.keys p.1.paths)).map fun w => walkW w.i w.j).sum = 0 := by
      apply List.sum_eq_zero
      intro y hy
      obtain ⟨w, hw, rfl⟩ := List.mem_map.1 hy
      exact hwalk w hw
    -- the generalised time from a stop
    have hgen : ∀ s ∈ Dict.keys p.1.paths, flow (generalW (frequencies routes freq) x sPTP pas p.1.res.succ p.1.dest)
        (stopTrace N (frequencies routes freq) p s) =
        (p.1.togo pas (.stop s) - s.mode.tat / 60 * pas.pa / pas.pv) * stopTrips p s := by
      intro s hs
      have hrs := (hrN s hs).trans_le hl.rounds
      have h1 := stopTrace_potential hN (hk' s hs) hr hrs (togo_block (sh := p.2) ha hd hx hf hcomp)
      have h2 := stopTrace_potential (N := N) (f := frequencies routes freq) (p := p) hN (hk' s hs) hr hrs (c := fun _ _ => 0)
        (h := fun _ => s.mode.tat / 60 * pas.pa / pas.pv) (by intro y _ a; simp)
      have h3 : flow (fun _ _ : ENode K => (0 : K)) (stopTrace N (frequencies routes freq) p s) = 0 := by
        apply List.sum_eq_zero
        intro z hz
        obtain ⟨p, _, rfl⟩ := List.mem_map.1 hz
        simp
      rw [h3, zero_add] at h2
      have hod : p.1.origin ≠ p.1.dest := by
        intro h
        have h4 := (hk s hs).2.1
        rw [stopOf, (hin s hs).2, h] at h4
        simp at h4
      have h4 : flow (fun _ j => if stopOf p.1.dest j then p.1.togo pas j else 0) (stopTrace N (frequencies routes freq) p s) =
          flow (fun _ j => if stopOf p.1.dest j then s.mode.tat / 60 * pas.pa / pas.pv else 0)
            (stopTrace N (frequencies routes freq) p s) := by
        apply flow_congr
        intro w hw
        split
        · next hdst =>
          obtain ⟨hpass, e, _, he, h5, h6⟩ := hl.item ha hd hx hp (List.mem_flatMap.2 ⟨s, hs, hw⟩)
          have hst : ∃ s', w.j = .stop s' ∧ s'.Wanted g routes := by
            rcases edge_cases hd hx he with ⟨ht, s', h7, h8⟩ | ⟨_, s', h7, h8⟩ | ⟨_, m, hm, h7, h8⟩ | ⟨_, m, hm, h7, h8⟩ | ⟨_, p, m, hp, hm, hpm, h7, h8⟩
            · obtain ⟨s2, hs2, h⟩ := ((C35_edges hd hx e).1).1 ⟨he, ht⟩
              rw [← h6]
              rcases h with rfl | rfl
              · exact ⟨s2, rfl, hs2⟩
              · cases h8
            · rw [← h6, h8] at hdst; cases hdst
            · rw [← h6, h8] at hdst; cases hdst
            · exact ⟨m.stop, by rw [← h6, h8], hm.2.2.2, m.route, List.mem_of_getElem? hm.1, hm.2.2.1.symm, m.dir, m.pos, hm.2.1⟩
            · rw [← h6, h8] at hdst; cases hdst
          obtain ⟨s', hs', hw'⟩ := hst
          rw [hs'] at hdst ⊢
          simp only [stopOf, decide_eq_true_eq] at hdst
          rw [togo_dest ha hd hx hcomp hod hw' hdst]
          obtain ⟨_, r1, hr1, hm1, _⟩ := (hsp.mem_stop hd s).1 (hin s hs).1
          obtain ⟨_, r2, hr2, hm2, _⟩ := hw'
          rcases hm with hm | hm
          · rw [← hm1, ← hm2, hm r1 hr1 r2 hr2]
          · rw [← hm1, ← hm2, hm r1 hr1, hm r2 hr2]
        · rfl
      rw [h4, h2] at h1
      linear_combination h1
    -- the flows together
    have hflows : flow (teW (frequencies routes freq) p.1.res.succ) (stopsTrace N (frequencies routes freq) p (Dict.keys p.1.paths)) * pas.spw +
      flow (tvW x z v p.1.res.succ) (stopsTrace N (frequencies routes freq) p (Dict.keys p.1.paths)) * pas.spv +
      flow (trW p.1.dest) (stopsTrace N (frequencies routes freq) p (Dict.keys p.1.paths)) * pas.spt / 60 * pas.spv =
      pas.spv * flow (generalW (frequencies routes freq) x sPTP pas p.1.res.succ p.1.dest)
        (stopsTrace N (frequencies routes freq) p (Dict.keys p.1.paths)) +
      pas.spv * flow (dwellW x z v p.1.res.succ) (stopsTrace N (frequencies routes freq) p (Dict.keys p.1.paths)) := by
      have hterm : ∀ vs : List (Item K), (∀ w ∈ vs, walkW w.i w.j = 0) →
          flow (teW (frequencies routes freq) p.1.res.succ) vs * pas.spw + flow (tvW x z v p.1.res.succ) vs * pas.spv +
          flow (trW p.1.dest) vs * pas.spt / 60 * pas.spv =
          pas.spv * flow (generalW (frequencies routes freq) x sPTP pas p.1.res.succ p.1.dest) vs +
          pas.spv * flow (dwellW x z v p.1.res.succ) vs := by
        intro vs
        induction vs with
        | nil => intro _; simp
        | cons w t ih =>
          intro hw
          have h1 := ih fun w' hw' => hw w' (List.mem_cons_of_mem _ hw')
          have h2 := hw w (by simp)
          simp only [flow_cons]
          have h3 : teW (frequencies routes freq) p.1.res.succ w.i w.j * pas.spw + tvW x z v p.1.res.succ w.i w.j * pas.spv +
              trW p.1.dest w.i w.j * pas.spt / 60 * pas.spv =
              pas.spv * generalW (frequencies routes freq) x sPTP pas p.1.res.succ p.1.dest w.i w.j +
              pas.spv * dwellW x z v p.1.res.succ w.i w.j := by
            unfold generalW dwellW tvW
            rw [h2, ‹SameValues sPTP pas›.transfer]
            have := ‹SameValues sPTP pas›.wait
            field_simp
            linear_combination (teW (frequencies routes freq) p.1.res.succ w.i w.j * 60) * this
          linear_combination h1 + w.pax * h3
      exact hterm _ hwalk
    rw [hwalk0, add_zero]
    have hgen' : flow (generalW (frequencies routes freq) x sPTP pas p.1.res.succ p.1.dest)
        (stopsTrace N (frequencies routes freq) p (Dict.keys p.1.paths)) =
        ((Dict.keys p.1.paths).map fun s => (p.1.togo pas (.stop s) - s.mode.tat / 60 * pas.pa / pas.pv) * stopTrips p s).sum := by
      unfold stopsTrace
      rw [flow_flatMap]
      congr 1
      exact List.map_congr_left hgen
    have hsum : ((Dict.keys p.1.paths).map fun s => p.1.vij * p.2.getD s 0 / 100 *
        (pas.spv * (p.1.res.label (.stop s)).untopD 0 + pas.spa * (lateral pas.va p s - s.mode.tat / 60))).sum =
        ((Dict.keys p.1.paths).map (accessOf pas.va p)).sum * pas.spa + pas.spv * ((Dict.keys p.1.paths).map fun s =>
          (p.1.togo pas (.stop s) - s.mode.tat / 60 * pas.pa / pas.pv) * stopTrips p s).sum := by
      rw [← List.sum_map_mul_right, ← List.sum_map_mul_left, ← List.sum_map_add]
      congr 1
      apply List.map_congr_left
      intro s hs
      have hacc : accessTime pas (some p.1.origin) (.stop s) = s.mode.tat / 60 * pas.pa / pas.pv :=
        if_pos (by rw [(hin s hs).2])
      unfold accessOf ODResult.togo
      rw [hacc]
      change stopTrips p s * _ = _
      have := ‹SameValues sPTP pas›.access
      unfold lateral
      have e1 : pas.spv * (pas.pa / pas.pv) = pas.spa := by
        field_simp
        linear_combination -this
      linear_combination (2 * stopTrips p s * (s.mode.tat / 60)) * e1
    rw [hsum, ← hgen']
    linear_combination hflows
  exact sum_cost _ _ _ _ _ _ _ _ _ _ l hcost

/-- C53: when the frequencies are those of the search, vehicles do not wait at the stops and the values of time are those
perceived, the users cost is the value of the trips times the labels of the stops where they start.  The labels also have the
access time at the destination, which the cost does not have; widths of the streets need not be zero. -/
theorem C53_users_cost (ha : Admissible routes sPTP freq pas) (hd : DistinctIds g)
    (hx : buildExtGraph g routes sPTP freq = .ok x) (hf : ∀ id, 0 ≤ (frequencies routes freq).getD id 0)
    (hl : Loading x pas N (frequencies routes freq) l) (hva : pas.va ≠ 0) (hs : SameValues sPTP pas)
    (hm : (∀ r ∈ routes, ∀ r' ∈ routes, r.mode = r'.mode) ∨ ∀ r ∈ routes, r.mode.tat = 0)
    (ht : ∀ r ∈ routes, r.mode.t = 0) :
    usersCost N (frequencies routes freq) x pas z v l = .ok (labelCost pas l) := by
  rw [users_cost_eq ha hd hx hf hl hva hs hm]
  congr 1
  rw [List.sum_eq_zero (l := l.map _), mul_zero, add_zero]
  intro y hy
  obtain ⟨p, hp, rfl⟩ := List.mem_map.1 hy
  apply List.sum_eq_zero
  intro y hy
  obtain ⟨w, hw, rfl⟩ := List.mem_map.1 hy
  obtain ⟨_, e, _, he, h1, h2⟩ := hl.item ha hd hx hp hw
  have h0 : dwellW x z v p.1.res.succ w.i w.j = 0 := by
    rw [← h1, ← h2]
    unfold dwellW throughW
    have h3 : alightW x.nodes v e.i e.j = 0 := by
      rcases edge_cases hd hx he with ⟨_, s, h5, h6⟩ | ⟨_, s, h5, h6⟩ | ⟨_, n, hn, h5, h6⟩ | ⟨_, n, hn, h5, h6⟩ | ⟨_, p, n, _, hn, hpn, h5, h6⟩
      · rw [h5, h6]; rfl
      · rw [h5, h6]; rfl
      · rw [h5, h6]; rfl
      · rw [h5, h6]
        unfold alightW
        simp only
        split
        · rfl
        · rw [ht _ (List.mem_of_getElem? hn.1)]
          simp
      · rw [h5, h6]; rfl
    rw [h3, zero_add]
    apply List.sum_eq_zero
    intro y hy
    obtain ⟨e2, he2, rfl⟩ := List.mem_map.1 hy
    unfold stayW
    split
    · next p' n' m' h1 h2 h3 =>
      rcases edge_cases hd hx he with ⟨_, s, h5, h6⟩ | ⟨_, s, h5, h6⟩ | ⟨_, n, hn, h5, h6⟩ | ⟨_, n, hn, h5, h6⟩ | ⟨_, p, n, hp, hn, hpn, h5, h6⟩
      · rw [h1] at h5; cases h5
      · rw [h1] at h5; cases h5
      · rw [h1] at h5; cases h5
      · rw [h2] at h6; cases h6
      · rw [h1] at h5
        rw [ENode.route.inj h5, ht _ (List.mem_of_getElem? hp.1)]
        simp
    · rfl
  rw [h0, zero_mul]

/-- C53: vehicles that wait at the stops only add to the cost -/
theorem C53_lower_bound (ha : Admissible routes sPTP freq pas) (hd : DistinctIds g)
    (hx : buildExtGraph g routes sPTP freq = .ok x) (hf : ∀ id, 0 ≤ (frequencies routes freq).getD id 0)
    (hl : Loading x pas N (frequencies routes freq) l) (hva : pas.va ≠ 0) (hs : SameValues sPTP pas) (hspv : 0 ≤ pas.spv)
    (hm : (∀ r ∈ routes, ∀ r' ∈ routes, r.mode = r'.mode) ∨ ∀ r ∈ routes, r.mode.tat = 0)
    (ht : ∀ r ∈ routes, 0 ≤ r.mode.t) (hV : ∀ p ∈ l, 0 ≤ p.1.vij ∧ ∀ s, 0 ≤ p.2.getD s 0)
    (hz : ∀ k, 0 ≤ z.getD k 0 ∧ 0 ≤ v.getD k 0) {c : K}
    (hc : usersCost N (frequencies routes freq) x pas z v l = .ok c) : labelCost pas l ≤ c := by
  rw [users_cost_eq ha hd hx hf hl hva hs hm] at hc
  cases hc
  refine le_add_of_nonneg_right (mul_nonneg hspv (List.sum_nonneg ?_))
  intro y hy
  obtain ⟨p, hp, rfl⟩ := List.mem_map.1 hy
  apply List.sum_nonneg
  intro y hy
  obtain ⟨w, hw, rfl⟩ := List.mem_map.1 hy
  obtain ⟨_, e, _, he, h1, h2⟩ := hl.item ha hd hx hp hw
  refine mul_nonneg ?_ ((pair_visited (hl.ok ha hd hx p hp)).2 hf
    (fun s _ => div_nonneg (mul_nonneg (hV p hp).1 ((hV p hp).2 s)) (by norm_num)) w hw)
  rw [← h1, ← h2]
  exact dwellW_nonneg hd hx hz ht he

end Generic

section Examples

attribute [local instance] ratMath ratText

/-- the resources on the routes `rs` with the trips `od` and the frequencies `f`; boardings and alightings are those of the
loading -/
def demoResources (rs : List (Route ℚ)) (od : Dict Int (Dict Int ℚ)) (f : Dict Str ℚ) : Py (Resources ℚ) := do
  let x ← buildExtGraph (demoCity 3) rs 2 none
  let r ← demoPipeline rs od f
  let t ← r.2.2
  resourcesConsumer (allNodes x.nodes).length f x demoPassenger.va t.z t.v (r.1.zip r.2.1)

/-- a bus from 1 to 2 and a tram from 2 to 0 -/
def twoModes : List (Route ℚ) :=
  [⟨"a".toList, demoMode, [1, 2], [2, 1], [1, 2], [2, 1], .custom⟩,
   ⟨"b".toList, { demoMode with oid := 2, name := "tram".toList }, [2, 0], [0, 2], [2, 0], [0, 2], .custom⟩]

/-- C52 fails for the access time: with twice the trips it is not twice as long, the walk between the bus and the tram counts
once -/
theorem C52_access_fails :
    (demoResources twoModes [(1, [(0, 5)])] (defaultFrequencies twoModes)).map Resources.ta = .ok (191 / 300) ∧
    (demoResources twoModes [(1, [(0, 10)])] (defaultFrequencies twoModes)).map Resources.ta = .ok (381 / 300) ∧
    (381 : ℚ) / 300 ≠ 2 * (191 / 300) := by decide +kernel

/-- the two buses of `demoRoutes`; passengers change at node 2 -/
def demoBuses : List (Route ℚ) :=
  [⟨"a".toList, demoMode, [1, 2, 0], [0, 2, 1], [1, 2, 0], [0, 2, 1], .custom⟩,
   ⟨"c".toList, demoMode, [2, 4, 6, 2], [], [2, 4, 6, 2], [], .circular⟩]

/-- a passenger who perceives times as they are valued -/
def demoFair : Passenger ℚ := { demoPassenger with spt := 2 }

def busOD : Dict Int (Dict Int ℚ) := [(1, [(4, 6), (2, 3), (0, 5)]), (4, [(1, 2)])]

def busExt : ExtGraph ℚ := ((buildExtGraph (demoCity 3) demoBuses 2 none).toOption).getD ⟨[], []⟩

/-- the hypotheses of C52, C53 and C59 hold for it -/
example : Admissible demoBuses 2 none demoFair ∧ DistinctIds (demoCity 3) ∧
    buildExtGraph (demoCity 3) demoBuses 2 none = .ok busExt ∧ SameValues 2 demoFair ∧
    (∀ r ∈ demoBuses, ∀ r' ∈ demoBuses, r.mode = r'.mode) ∧ (∀ n ∈ (demoCity 3).nodes, 0 ≤ n.width) ∧
    (∀ id, 0 ≤ (frequencies demoBuses none).getD id 0) ∧
    ∃ res, allHyperpaths busExt.nodes busExt.edges demoFair busOD = .ok res ∧ (∀ e ∈ res, 0 ≤ e.vij) ∧ ∀ shares,
      Loading busExt demoFair (allNodes busExt.nodes).length (frequencies demoBuses none) (res.zip shares) := by
  have hd : DistinctIds (demoCity 3) := by unfold DistinctIds; decide +kernel
  have hx : buildExtGraph (demoCity 3) demoBuses 2 none = .ok busExt := by decide +kernel
  have ha : Admissible demoBuses 2 none demoFair := by
    refine ⟨?_, ?_, by norm_num, ?_, by norm_num [demoFair, demoPassenger], by norm_num [demoFair, demoPassenger],
      by norm_num [demoFair, demoPassenger]⟩
    · have : ∀ r ∈ demoBuses, 0 ≤ r.mode.tat ∧ 0 < r.mode.theta ∧ 0 < r.mode.v ∧ 0 < (r.mode.d : ℚ) := by decide +kernel
      exact fun r hr => ⟨(this r hr).1, (this r hr).2.1, (this r hr).2.2.1, (this r hr).2.2.2⟩
    · decide +kernel
    · exact demoAdmissible.root
  refine ⟨ha, hd, hx, ⟨?_, ?_, rfl⟩, by decide +kernel, by decide +kernel, getD_nonneg (by decide +kernel), ?_⟩
  · norm_num [demoFair, demoPassenger]
  · norm_num [demoFair, demoPassenger]
  · have hv : networkValidator busExt.nodes busExt.edges demoFair busOD = .ok true := by decide +kernel
    obtain ⟨res, hres, _⟩ := (C41_all_pairs ha hd hx busOD).1 hv
    refine ⟨res, hres, ?_, fun shares => C44_applies ha hd hx ?_ hres shares⟩
    · have : ((allHyperpaths busExt.nodes busExt.edges demoFair busOD).toOption.map fun r => r.map ODResult.vij) =
          some [6, 3, 5, 2] := by decide +kernel
      rw [hres] at this
      simp only [Except.toOption, Option.map_some, Option.some.injEq] at this
      intro e he
      have : e.vij ∈ ([6, 3, 5, 2] : List ℚ) := by
        rw [← this]
        exact List.mem_map_of_mem he
      simp only [List.mem_cons, List.not_mem_nil, or_false] at this
      rcases this with h | h | h | h <;> rw [h] <;> norm_num
    · exact getD_nonneg (by decide +kernel)

/-- C59: six trips from 1 to 4 and two back change at node 2 -/
example : (demoResources demoBuses busOD (defaultFrequencies demoBuses)).map (fun u => u.t) = .ok 8 := by decide +kernel

/-- C53: cost and labels; vehicles wait at the stops -/
def demoCost (rs : List (Route ℚ)) : Py (ℚ × ℚ) := do
  let x ← buildExtGraph (demoCity 3) rs 2 none
  let res ← allHyperpaths x.nodes x.edges demoFair busOD
  let shares ← getAssignment res 2 4 6 2
  let t ← getLoads (allNodes x.nodes).length (defaultFrequencies rs) (res.zip shares)
  let c ← usersCost (allNodes x.nodes).length (defaultFrequencies rs) x demoFair t.z t.v (res.zip shares)
  return (c, labelCost demoFair (res.zip shares))

example : demoCost demoBuses = .ok (12271 / 150, 12254 / 150) := by decide +kernel

/-- without boarding and alighting times -/
example : demoCost (demoBuses.map fun r => { r with mode := { r.mode with t := 0 } }) = .ok (12254 / 150, 12254 / 150) := by
  decide +kernel

end Examples

end Sidermit
