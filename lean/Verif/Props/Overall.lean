import Verif.Proofs.Overall

/-!
C61: the overall results, `Optimizer.get_overall_results` of `optimizer.py`.
-/

set_option linter.unusedSectionVars false

namespace Sidermit

section Generic

variable {K : Type} [Field K] [LinearOrder K] [IsStrictOrderedRing K] [PyMath K] {g : Graph K} {d : Demand K}
  {pas : Passenger K} {net : Network K} {f : Option (Dict Str K)} {o fin : Optimizer K} {fr : Dict Str K} {t : Loads K}

/-- the costs of an hour: operators, streets and the resources of the users -/
theorem LastRun.costs (h : LastRun g d pas net fr fin t) {n : Nat} {A B : Route K → List (Node K)} (hy : Layout g net n A B) :
    ∃ u times co,
      resourcesConsumer (allNodes fin.ext.nodes).length fr fin.ext pas.va t.z t.v fin.pairs = .ok u ∧
      linesTravelTime net.routes g.edgesDistance = .ok times ∧
      fin.operatorsCost t.z t.v fr (getK t.load) = .ok (co, getCycleTime t.z t.v net.routes times) ∧
      resourcesConsumer (allNodes fin.ext.nodes).length fr fin.ext pas.va (getCycleTime t.z t.v net.routes times).z
        (getCycleTime t.z t.v net.routes times).v fin.pairs = .ok u ∧
      (getCycleTime (getCycleTime t.z t.v net.routes times).z (getCycleTime t.z t.v net.routes times).v net.routes times).time =
        (getCycleTime t.z t.v net.routes times).time ∧
      ∀ T : List (LoadKey K), T.Nodup → (∀ k ∈ Dict.keys t.z, k ∈ T) → (∀ k ∈ Dict.keys t.v, k ∈ T) →
        (∀ r ∈ net.routes, (getCycleTime t.z t.v net.routes times).time.getD r.id 0 = cycleOf t.z t.v T A B r) ∧
        co = ((net.routes.filter fun r => fr.getD r.id 0 ≠ 0).map fun r =>
          (r.mode.co + r.mode.c1 * fullest t.load r.id) * (fr.getD r.id 0 * cycleOf t.z t.v T A B r)).sum := by
  obtain ⟨e1, e2, e3, e4, hadm, hx, hl, ht⟩ := h.facts
  obtain ⟨times, htimes, hcyc⟩ := h.cycle hy
  obtain ⟨hz, hv'⟩ := C50_applies hadm h.built.nodes hx hl ht
  obtain ⟨hz', hv'', hagain⟩ := C50_tables_unchanged hz hv' net.routes times
  obtain ⟨u, hu⟩ := C52_terminates (z := t.z) (v := t.v) hadm h.built.nodes hx hl h.built.walk.ne'
  have hu' : resourcesConsumer (allNodes fin.ext.nodes).length fr fin.ext pas.va (getCycleTime t.z t.v net.routes times).z
      (getCycleTime t.z t.v net.routes times).v fin.pairs = .ok u := by
    rw [← hu, resources_spec (hl.users hadm h.built.nodes hx h.built.walk.ne'),
      resources_spec (hl.users hadm h.built.nodes hx h.built.walk.ne')]
    simp only [tvW_congr hz' hv'']
  have hco : fin.operatorsCost t.z t.v fr (getK t.load) = .ok (Sidermit.operatorsCost net.routes
      (getCycleTime t.z t.v net.routes times).time fr (getK t.load), getCycleTime t.z t.v net.routes times) := by
    rw [Optimizer.operatorsCost, e1, e4, htimes]
    rfl
  refine ⟨u, times, _, hu, htimes, hco, hu', hagain, ?_⟩
  intro T hT hTz hTv
  have hcyc := hcyc T hT hTz hTv
  refine ⟨hcyc, ?_⟩
  classical
  rw [C51_sum]
  have hfil : ∀ rs : List (Route K), (∀ r ∈ rs, r ∈ net.routes) →
      ((rs.filter fun r => Active fr r).map fun r => (r.mode.co + r.mode.c1 * (getK t.load).getD r.id 0) *
        (fr.getD r.id 0 * (getCycleTime t.z t.v net.routes times).time.getD r.id 0)).sum =
      ((rs.filter fun r => fr.getD r.id 0 ≠ 0).map fun r =>
        (r.mode.co + r.mode.c1 * fullest t.load r.id) * (fr.getD r.id 0 * cycleOf t.z t.v T A B r)).sum := by
    intro rs
    induction rs with
    | nil => intro _; rfl
    | cons r rs ih =>
      intro h
      have ih' := ih fun r hr => h r (by simp [hr])
      by_cases ha : fr.getD r.id 0 = 0
      · rw [List.filter_cons, if_neg (show ¬ decide (Active fr r) = true from fun h => (of_decide_eq_true h) ha),
          List.filter_cons_of_neg (by simpa using ha), ih']
      · rw [List.filter_cons, if_pos (show decide (Active fr r) = true from decide_eq_true ha),
          List.filter_cons_of_pos (by simpa using ha), List.map_cons, List.map_cons, List.sum_cons, List.sum_cons, ih',
          hcyc r (h r (by simp)), getK_eq]
  exact hfil net.routes fun r hr => hr

/-- C61: without trips the overall results end in a division by zero -/
theorem C61_no_trips (h : LastRun g d pas net fr fin t) {n : Nat} {A B : Route K → List (Node K)} (hy : Layout g net n A B)
    (h0 : d.total = 0) : fin.overall fr t = .error .ZeroDivisionError := by
  obtain ⟨e1, e2, e3, e4, hadm, hx, hl, ht⟩ := h.facts
  obtain ⟨u, times, co, hu, htimes, hco, hu', hagain, hcyc⟩ := h.costs hy
  obtain ⟨s, hs, _⟩ := averages_ok (modeTable_ok (getCycleTime (getCycleTime t.z t.v net.routes times).z
    (getCycleTime t.z t.v net.routes times).v net.routes times).time fr (getK t.load) net.routes)
  unfold Optimizer.overall
  rw [hco, py_ok_bind, usersCost]
  simp only [e1, e2, e3, e4, hu', py_ok_bind, py_pure, htimes, hs, h0, pyDiv_zero]
  rfl

/-- C61: the costs reported are those of an hour divided among the trips: the operators' cost of the lines that run, the cost of
the streets they use and the worth of the users' times, and their sum.  The times are those of the users, in minutes per trip. -/
theorem C61_overall (h : LastRun g d pas net fr fin t) {n : Nat} {A B : Route K → List (Node K)} (hy : Layout g net n A B)
    (hm : net.modes.Nodup) (h0 : d.total ≠ 0) : ∃ u x,
      resourcesConsumer (allNodes fin.ext.nodes).length fr fin.ext pas.va t.z t.v fin.pairs = .ok u ∧
      fin.overall fr t = .ok x ∧
      x.vrc = x.operators + x.infrastructure + x.users ∧
      x.onBoard * d.total = 60 * u.tv ∧ x.waiting * d.total = 60 * u.te ∧ x.access * d.total = 60 * u.ta ∧
      x.transfers * d.total = u.t ∧
      x.users = (pas.spa * x.access + pas.spw * x.waiting + pas.spv * (x.onBoard + pas.spt * x.transfers)) / 60 ∧
      ∀ (S : Mode K → List (Node K × Node K)) (T : List (LoadKey K)),
        (∀ m ∈ net.modes, EachOnce (UsedStreet g n net.routes fr m) (S m)) → T.Nodup → (∀ k ∈ Dict.keys t.z, k ∈ T) →
        (∀ k ∈ Dict.keys t.v, k ∈ T) →
        x.operators * d.total = ((net.routes.filter fun r => fr.getD r.id 0 ≠ 0).map fun r =>
          (r.mode.co + r.mode.c1 * fullest t.load r.id) * (fr.getD r.id 0 * cycleOf t.z t.v T A B r)).sum ∧
        x.infrastructure * d.total = (net.modes.map fun m => m.c2 * ((m.d : K) * lengthOf (S m))).sum ∧
        ∀ m, x.fleet.get? m = (if runningOf fr m net.routes = [] then none else
            some ((runningOf fr m net.routes).map fun r => fr.getD r.id 0 * cycleOf t.z t.v T A B r).sum) ∧
          x.lines.get? m = (if runningOf fr m net.routes = [] then none else
            some (m.d * ((runningOf fr m net.routes).length : Int))) ∧
          x.sizes.get? m = (if runningOf fr m net.routes = [] then none else
            some (((runningOf fr m net.routes).map fun r => fullest t.load r.id).sum / ((runningOf fr m net.routes).length : K))) := by
  obtain ⟨e1, e2, e3, e4, hadm, hx, hl, ht⟩ := h.facts
  obtain ⟨u, times, co, hu, htimes, hco, hu', hagain, hcyc⟩ := h.costs hy
  have htab := modeTable_ok (getCycleTime (getCycleTime t.z t.v net.routes times).z
    (getCycleTime t.z t.v net.routes times).v net.routes times).time fr (getK t.load) net.routes
  obtain ⟨s, hs, hsz⟩ := averages_ok htab
  have hx : fin.overall fr t = .ok ⟨(co + infrastructureCost g net.routes net.modes fr + resourcesCost pas u) / d.total,
      co / d.total, infrastructureCost g net.routes net.modes fr / d.total, resourcesCost pas u / d.total,
      u.tv / d.total * 60, u.te / d.total * 60, u.ta / d.total * 60, u.t / d.total,
      (net.routes.foldl (modeStep (getCycleTime (getCycleTime t.z t.v net.routes times).z
        (getCycleTime t.z t.v net.routes times).v net.routes times).time fr (getK t.load)) ⟨[], [], []⟩).fleet, s,
      (net.routes.foldl (modeStep (getCycleTime (getCycleTime t.z t.v net.routes times).z
        (getCycleTime t.z t.v net.routes times).v net.routes times).time fr (getK t.load)) ⟨[], [], []⟩).lines⟩ := by
    unfold Optimizer.overall
    rw [hco, py_ok_bind, usersCost]
    simp only [e1, e2, e3, e4, hu', py_ok_bind, py_pure, htimes, hs, pyDiv_ok h0]
  refine ⟨u, _, hu, hx, ?_, ?_, ?_, ?_, ?_, ?_, ?_⟩
  · simp only; ring
  · simp only; field_simp
  · simp only; field_simp
  · simp only; field_simp
  · simp only; field_simp
  · simp only [resourcesCost]; field_simp; ring
  · intro S T hS hT hTz hTv
    obtain ⟨hc, hop⟩ := hcyc T hT hTz hTv
    refine ⟨?_, ?_, ?_⟩
    · simp only; rw [← hop]; field_simp
    · simp only; rw [← C46_cost hy.city h.built.nodes net.routes hm fr hS]; field_simp
    · intro m
      have hmem : ∀ r ∈ runningOf fr m net.routes, r ∈ net.routes := fun r hr => List.mem_of_mem_filter hr
      refine ⟨?_, htab.lines m, ?_⟩
      · simp only
        rw [htab.fleet m, hagain]
        congr 3
        exact List.map_congr_left fun r hr => by rw [hc r (hmem r hr)]
      · simp only
        rw [hsz m]
        congr 4
        exact List.map_congr_left fun r hr => by rw [getK_eq]

/-- C61: the cost reported is the total cost of the solution, with the passengers who adapt to it, divided among the trips -/
theorem C61_objective (hb : Built g d pas net f o) {res : Res K} (hlen : res.x.length = net.routes.length)
    (hpos : ∀ c ∈ res.x, 0 ≤ c) (hlast : o.lastIteration res = .ok (fr, fin, t)) {x : Overall K} (hx : fin.overall fr t = .ok x) :
    fin.vrc res.x = .ok (x.vrc * d.total) := by
  have h := (C60_last_iteration hb hlen hpos hlast).2
  obtain ⟨e1, e2, e3, e4, _⟩ := h.facts
  obtain ⟨fr', hfr', _⟩ := hb.vector hlen
  have hfr : foptToF fin.lines res.x = .ok fr := by
    have hl : fin.lines = o.lines := by
      rw [(prepare_fields h.built.built).2.2.2.2.2.2.1, (prepare_fields hb.built).2.2.2.2.2.2.1, f0_lines, f0_lines]
    rw [Optimizer.lastIteration, hfr', py_ok_bind] at hlast
    obtain ⟨_, _, hlast⟩ := py_bind_eq_ok.1 hlast
    obtain ⟨_, _, hlast⟩ := py_bind_eq_ok.1 hlast
    have := Except.ok.inj hlast
    simp only [Prod.mk.injEq] at this
    rw [hl, hfr', this.1]
  unfold Optimizer.overall at hx
  obtain ⟨co, hco, hx⟩ := py_bind_eq_ok.1 hx
  simp only at hx
  obtain ⟨cu, hcu, hx⟩ := py_bind_eq_ok.1 hx
  obtain ⟨u, hu, hx⟩ := py_bind_eq_ok.1 hx
  obtain ⟨times, _, hx⟩ := py_bind_eq_ok.1 hx
  obtain ⟨sizes, _, hx⟩ := py_bind_eq_ok.1 hx
  obtain ⟨vrc, hvrc, hx⟩ := py_bind_eq_ok.1 hx
  obtain ⟨_, _, hx⟩ := py_bind_eq_ok.1 hx
  obtain ⟨_, _, hx⟩ := py_bind_eq_ok.1 hx
  obtain ⟨_, _, hx⟩ := py_bind_eq_ok.1 hx
  obtain ⟨_, _, hx⟩ := py_bind_eq_ok.1 hx
  obtain ⟨_, _, hx⟩ := py_bind_eq_ok.1 hx
  obtain ⟨_, _, hx⟩ := py_bind_eq_ok.1 hx
  obtain ⟨_, _, hx⟩ := py_bind_eq_ok.1 hx
  cases hx
  obtain ⟨hn, hv⟩ := pyDiv_eq_ok.1 hvrc
  rw [e2] at hn hv
  rw [Optimizer.vrc, hfr, py_ok_bind, h.loads, py_ok_bind, Optimizer.costs, hco, py_ok_bind, hcu]
  simp only [py_ok_bind, py_pure]
  rw [hv, div_mul_cancel₀ _ hn]

theorem sum_filter_zip {α β M : Type} [AddCommMonoid M] (l : List α) (l' : List β) (hl : l.length = l'.length) (p : α → Bool)
    (q : α × β → Bool) (w : α → M) (w' : α × β → M)
    (h : ∀ c ∈ l.zip l', (p c.1 = true → q c = true ∧ w c.1 = w' c) ∧ (p c.1 = false → q c = true → w' c = 0)) :
    ((l.filter p).map w).sum = (((l.zip l').filter q).map w').sum := by
  induction l generalizing l' with
  | nil => simp
  | cons a l ih =>
    cases l' with
    | nil => simp at hl
    | cons b l' =>
      have ih := ih l' (by simpa using hl) fun q hq => h q (by simp [hq])
      have hc := h (a, b) (by simp)
      rw [List.zip_cons_cons]
      by_cases ha : p a = true
      · have hq := hc.1 ha
        rw [List.filter_cons_of_pos ha, List.filter_cons_of_pos (p := q) hq.1, List.map_cons, List.map_cons, List.sum_cons,
          List.sum_cons, ih, ← hq.2]
      · rw [List.filter_cons_of_neg ha, ih]
        by_cases hq : q (a, b) = true
        · rw [List.filter_cons_of_pos (p := q) hq, List.map_cons, List.sum_cons, hc.2 (by simpa using ha) hq, zero_add]
        · rw [List.filter_cons_of_neg (p := q) hq]

/-- C61: the overall results agree with the table of the lines: the vehicles of a mode are those of its lines, and the operators'
cost of all trips is that of the vehicles of all lines -/
theorem C61_agrees (h : LastRun g d pas net fr fin t) {n : Nat} {A B : Route K → List (Node K)} (hy : Layout g net n A B)
    (hm : net.modes.Nodup) {rows : List (Row K)} (hrows : fin.rows fr t = .ok rows) {x : Overall K} (hx : fin.overall fr t = .ok x) :
    (∀ m, x.fleet.getD m 0 = (((net.routes.zip rows).filter fun p => decide (p.1.mode = m)).map fun p => p.2.fleet).sum) ∧
    x.operators * d.total = ((net.routes.zip rows).map fun p => (p.1.mode.co + p.1.mode.c1 * p.2.k) * p.2.fleet).sum ∧
    ∀ m, x.lines.getD m 0 = ((net.routes.zip rows).filter fun p => decide (p.1.mode = m ∧ 0 < p.2.f)).length * m.d := by
  classical
  have h0 : d.total ≠ 0 := by
    intro h0
    rw [C61_no_trips h hy h0] at hx
    cases hx
  obtain ⟨_, x', _, hx', _, _, _, _, _, _, hrest⟩ := C61_overall h hy hm h0
  rw [hx] at hx'
  cases hx'
  choose S hS using fun m => C46_streets_exist g n net.routes fr m
  obtain ⟨T, hT, hmem⟩ : ∃ T : List (LoadKey K), T.Nodup ∧ ∀ k, k ∈ T ↔ k ∈ Dict.keys t.z ∨ k ∈ Dict.keys t.v :=
    ⟨(Dict.keys t.z ++ Dict.keys t.v).dedup, List.nodup_dedup _, fun k => by rw [List.mem_dedup, List.mem_append]⟩
  have hTz : ∀ k ∈ Dict.keys t.z, k ∈ T := fun k hk => (hmem k).2 (Or.inl hk)
  have hTv : ∀ k ∈ Dict.keys t.v, k ∈ T := fun k hk => (hmem k).2 (Or.inr hk)
  obtain ⟨hop, _, hmodes⟩ := hrest S T (fun m _ => hS m) hT hTz hTv
  obtain ⟨hids, hrow⟩ := C60_rows h hy hT hTz hTv hrows
  have hlen : net.routes.length = rows.length := by
    have := congrArg List.length hids
    simpa using this.symm
  have hc : ∀ c ∈ net.routes.zip rows, (fr.getD c.1.id 0 = 0 → c.2.f = 0 ∧ c.2.fleet = 0) ∧
      (fr.getD c.1.id 0 ≠ 0 → c.2.f = fr.getD c.1.id 0 ∧ c.2.k = fullest t.load c.1.id ∧
        c.2.fleet = fr.getD c.1.id 0 * cycleOf t.z t.v T A B c.1) := by
    intro c hc
    obtain ⟨i, hi, he⟩ := List.getElem_of_mem hc
    rw [List.length_zip] at hi
    have h1 : net.routes[i]? = some c.1 := by
      rw [List.getElem?_eq_getElem (by omega), ← he, List.getElem_zip]
    have h2 : rows[i]? = some c.2 := by
      rw [List.getElem?_eq_getElem (by omega), ← he, List.getElem_zip]
    obtain ⟨a, b, _⟩ := hrow i c.1 c.2 h1 h2
    refine ⟨fun h0 => ⟨(a h0).1, (a h0).2.2.2.1⟩, fun h0 => ?_⟩
    obtain ⟨b1, _, b3, b4, _⟩ := b h0
    exact ⟨b1, b3, by rw [b4, b1]⟩
  refine ⟨?_, ?_, ?_⟩
  · intro m
    have he : x.fleet.getD m 0 = ((runningOf fr m net.routes).map fun r => fr.getD r.id 0 * cycleOf t.z t.v T A B r).sum := by
      rw [Dict.getD, (hmodes m).1]
      by_cases hn : runningOf fr m net.routes = [] <;> simp [hn]
    rw [he]
    refine sum_filter_zip _ _ hlen _ _ _ _ fun c hcm => ⟨fun hp => ?_, fun hp hq => ?_⟩
    · have hp := of_decide_eq_true hp
      exact ⟨decide_eq_true hp.1, (((hc c hcm).2 hp.2.ne').2.2).symm⟩
    · have hp := of_decide_eq_false hp
      have hq := of_decide_eq_true hq
      refine ((hc c hcm).1 (le_antisymm (not_lt.1 fun h => hp ⟨hq, h⟩) (h.nonneg _))).2
  · rw [hop]
    have := sum_filter_zip net.routes rows hlen (fun r => decide (fr.getD r.id 0 ≠ 0)) (fun _ => true)
      (fun r => (r.mode.co + r.mode.c1 * fullest t.load r.id) * (fr.getD r.id 0 * cycleOf t.z t.v T A B r))
      (fun p => (p.1.mode.co + p.1.mode.c1 * p.2.k) * p.2.fleet) fun c hcm => ⟨fun hp => ?_, fun hp _ => ?_⟩
    · rw [List.filter_true] at this
      exact this
    · obtain ⟨_, h2, h3⟩ := (hc c hcm).2 (of_decide_eq_true hp)
      exact ⟨rfl, by rw [h2, h3]⟩
    · have hp : fr.getD c.1.id 0 = 0 := by simpa using hp
      rw [((hc c hcm).1 hp).2, mul_zero]
  · intro m
    have he : x.lines.getD m 0 = ((runningOf fr m net.routes).map fun _ => m.d).sum := by
      rw [Dict.getD, (hmodes m).2.1]
      by_cases hn : runningOf fr m net.routes = []
      · simp [hn]
      · simp [hn, mul_comm]
    rw [he]
    rw [runningOf, sum_filter_zip net.routes rows hlen (fun r => decide (r.mode = m ∧ 0 < fr.getD r.id 0))
      (fun p => decide (p.1.mode = m ∧ 0 < p.2.f)) (fun _ => m.d) (fun _ => m.d) fun c hcm => ⟨fun hp => ?_, fun hp hq => ?_⟩]
    · simp
    · have hp := of_decide_eq_true hp
      exact ⟨decide_eq_true ⟨hp.1, by rw [((hc c hcm).2 hp.2.ne').1]; exact hp.2⟩, rfl⟩
    · have hp := of_decide_eq_false hp
      have hq := of_decide_eq_true hq
      have hz : fr.getD c.1.id 0 = 0 := le_antisymm (not_lt.1 fun h => hp ⟨hq.1, h⟩) (h.nonneg _)
      rw [((hc c hcm).1 hz).1] at hq
      exact absurd hq.2 (lt_irrefl _)

end Generic

end Sidermit
